import Verif.Dasd.Model
import Verif.Dasd.Spec
/-!
# Formatting a disk (C39)
-/
namespace Verif.Dasd
open Verif.Card (Res look)
open Verif.Xlat

theorem setBs_ok (vs : List Nat) : ∀ (s : S) (b : List Nat) (i : Nat), s.cbuf = some b → i + vs.length ≤ b.length →
    setBs s i vs = .ok { s with cbuf := some (b.take i ++ vs ++ b.drop (i + vs.length)) } := by
  induction vs with
  | nil => intro s b i h _; simp [setBs, ← h]
  | cons v vs ih =>
    intro s b i h hl
    simp only [List.length_cons] at hl
    simp only [setBs, setB, h, if_pos (show i < b.length by omega), Res.bind]
    rw [ih _ (b.set i v) (i + 1) rfl (by simp; omega)]
    congr 2
    have e0 : b.set i v = b.take i ++ v :: b.drop (i + 1) := by
      rw [List.set_eq_take_append_cons_drop, if_pos (by omega)]
    have e1 : (b.set i v).take (i + 1) = b.take i ++ [v] := by
      have : i + 1 = (b.take i).length + 1 := by rw [List.length_take]; omega
      rw [e0, this, List.take_length_add_append]
      simp
    have e2 : (b.set i v).drop (i + 1 + vs.length) = b.drop (i + (vs.length + 1)) := by
      rw [List.drop_set_of_lt (by omega)]
      congr 1; omega
    rw [e1, e2]
    simp

/-- Storing bytes into a stretch of zeros, after a gap of `g` bytes. -/
theorem put (s : S) (a post vs : List Nat) (n g i : Nat) (h : s.cbuf = some (a ++ List.replicate n 0 ++ post))
    (hi : i = a.length + g) (hl : g + vs.length ≤ n) :
    setBs s i vs = .ok { s with cbuf := some ((a ++ (List.replicate g 0 ++ vs)) ++ List.replicate (n - (g + vs.length)) 0 ++ post) } := by
  subst hi
  rw [setBs_ok vs s _ _ h (by simp; omega)]
  congr 2
  have e1 : (a ++ List.replicate n 0 ++ post).take (a.length + g) = a ++ List.replicate g 0 := by
    rw [List.append_assoc, List.take_length_add_append, List.take_append_of_le_length (by simp; omega), List.take_replicate,
      Nat.min_eq_left (by omega)]
  have e2 : (a ++ List.replicate n 0 ++ post).drop (a.length + g + vs.length) =
      List.replicate (n - (g + vs.length)) 0 ++ post := by
    rw [List.append_assoc, Nat.add_assoc, List.drop_length_add_append, List.drop_append_of_le_length (by simp; omega),
      List.drop_replicate]
  rw [e1, e2]
  simp

/-! ### The volume record -/

/-- The EBCDIC code the volume record gets for a label character. -/
def ebc (c : Nat) : Nat := (asciiToEbcdic c).getD 0

theorem ebc_ok (c : Nat) (h : c < 128) : look (asciiToEbcdic c) = .ok (ebc c) := by
  have key : ∀ c : Fin 128, look (asciiToEbcdic c) = .ok (ebc c) := by decide +kernel
  exact key ⟨c, h⟩

/-- The eight bytes holding the volume name: the label where it has characters, `111111 ` and a zero elsewhere. -/
def volName8 (label : List Nat) : List Nat :=
  (List.range 8).map fun i => if label.getD i 0 = 0 then volrec.getD (8 + i) 0 else ebc (label.getD i 0)

def volAll (label : List Nat) : List Nat := volrec.take 8 ++ volName8 label ++ volrec.drop 16

theorem volBytes_map (label : List Nat) (hl : ∀ c ∈ label, c < 128) : ∀ l : List (Nat × Nat),
    volBytes label l = .ok (l.map fun x => if 8 ≤ x.1 ∧ x.1 ≤ 16 ∧ label.getD (x.1 - 8) 0 ≠ 0 then ebc (label.getD (x.1 - 8) 0) else x.2) := by
  intro l
  induction l with
  | nil => rfl
  | cons x l ih =>
    obtain ⟨p, v⟩ := x
    have hc : label.getD (p - 8) 0 < 128 := by
      rw [List.getD_eq_getElem?_getD]
      cases h : label[p - 8]? with
      | none => simp
      | some c => exact hl c (List.mem_of_getElem? h)
    simp only [volBytes, ih, List.map_cons]
    split
    · rw [ebc_ok _ hc]; rfl
    · rfl

theorem volBytes_eq (label : List Nat) (hl : ∀ c ∈ label, c < 128) (h8 : label.length ≤ 8) :
    volBytes label volIdx = .ok (volAll label) := by
  rw [volBytes_map label hl]
  have h0 : label.getD 8 0 = 0 := by rw [List.getD_eq_getElem?_getD, List.getElem?_eq_none h8]; rfl
  have e : volIdx = (volIdx.take 8) ++ ((List.range 8).map fun i => (8 + i, volrec.getD (8 + i) 0)) ++ [(16, volrec.getD 16 0)] ++
      volIdx.drop 17 := by decide +kernel
  rw [e]
  simp only [List.map_append, volAll, volName8, List.map_map, List.map_cons, List.map_nil]
  have a1 : (volIdx.take 8).map (fun x => if 8 ≤ x.1 ∧ x.1 ≤ 16 ∧ label.getD (x.1 - 8) 0 ≠ 0 then ebc (label.getD (x.1 - 8) 0) else x.2) =
      volrec.take 8 := by
    have : (volIdx.take 8).map Prod.snd = volrec.take 8 := by decide +kernel
    rw [← this]
    refine List.map_congr_left fun x hx => if_neg ?_
    have : ∀ x ∈ volIdx.take 8, ¬ 8 ≤ x.1 := by decide +kernel
    exact fun h => this x hx h.1
  have a3 : (volIdx.drop 17).map (fun x => if 8 ≤ x.1 ∧ x.1 ≤ 16 ∧ label.getD (x.1 - 8) 0 ≠ 0 then ebc (label.getD (x.1 - 8) 0) else x.2) =
      volrec.drop 17 := by
    have : (volIdx.drop 17).map Prod.snd = volrec.drop 17 := by decide +kernel
    rw [← this]
    refine List.map_congr_left fun x hx => if_neg ?_
    have : ∀ x ∈ volIdx.drop 17, ¬ x.1 ≤ 16 := by decide +kernel
    exact fun h => this x hx h.2.1
  rw [a1, a3]
  have a4 : volrec.drop 16 = [volrec.getD 16 0] ++ volrec.drop 17 := by decide +kernel
  rw [a4]
  have a2 : (if 8 ≤ 16 ∧ 16 ≤ 16 ∧ label.getD (16 - 8) 0 ≠ 0 then ebc (label.getD (16 - 8) 0) else volrec.getD 16 0) = volrec.getD 16 0 :=
    if_neg fun h => h.2.2 h0
  simp only [a2, List.append_assoc]
  congr 3
  refine List.map_congr_left fun i hi => ?_
  have : i < 8 := by simpa using hi
  simp only [Function.comp, Nat.add_sub_cancel_left]
  by_cases hz : label.getD i 0 = 0
  · rw [if_neg (fun h => h.2.2 hz), if_pos hz]
  · rw [if_pos ⟨by omega, by omega, hz⟩, if_neg hz]

/-! ### One track -/

/-- The records a formatted track holds. -/
def freshRecs (flag : Bool) (label : List Nat) (cyl hd : Nat) : List Spec.Rec :=
  if cyl = 0 ∧ hd = 0 ∧ flag then
    [Spec.r0 0 0, ⟨0, 0, 1, ipl1rec.take 4, ipl1rec.drop 4⟩, ⟨0, 0, 2, ipl2key, List.replicate 144 0⟩,
     ⟨0, 0, 3, (volAll label).take 4, (volAll label).drop 4⟩]
  else [Spec.r0 cyl hd, Spec.r1 cyl hd]

/-- A formatted track with its padding. -/
def freshTrack (flag : Bool) (label : List Nat) (n cyl hd : Nat) : List Nat :=
  let b := Spec.track cyl hd (freshRecs flag label cyl hd)
  b ++ List.replicate (n - b.length) 0

theorem volAll_length (label : List Nat) : (volAll label).length = 84 := by
  simp [volAll, volName8, volrec]

theorem cchh_eq (cyl hd : Nat) (hc : cyl < 65536) (hh : hd < 65536) :
    cchh cyl hd = [cyl / 256, cyl % 256, hd / 256, hd % 256] := by
  simp only [cchh, u8, Nat.shiftRight_eq_div_pow, show (255 : Nat) = 2 ^ 8 - 1 by decide, Nat.and_two_pow_sub_one_eq_mod]
  simp
  omega

theorem formatTrack_eq (s : S) (flag : Bool) (cyl hd n : Nat) (pre post : List Nat) (hc : cyl < 65536) (hh : hd < 65536)
    (hl : ∀ c ∈ s.label, c < 128) (h8 : s.label.length ≤ 8) (hn : 400 ≤ n)
    (hb : s.cbuf = some (pre ++ List.replicate n 0 ++ post)) :
    formatTrack s flag cyl hd pre.length = .ok { s with cbuf := some (pre ++ freshTrack flag s.label n cyl hd ++ post) } := by
  have bk : ∀ {α β : Type} (a : α) (f : α → Res β), (Res.ok a).bind f = f a := fun _ _ => rfl
  have fin : ∀ (X T : List Nat) (k : Nat), X = pre ++ T → k = n - T.length →
      X ++ List.replicate k 0 ++ post = pre ++ (T ++ List.replicate (n - T.length) 0) ++ post := by
    intro X T k h1 h2
    subst h1; subst h2; simp
  unfold formatTrack
  rw [put s pre post _ n 0 _ hb (by simp) (by simp [cchh]; omega), bk]
  rw [put _ _ post _ _ 8 _ rfl (by simp [cchh]) (by simp [cchh]; omega), bk]
  by_cases h : cyl = 0 ∧ hd = 0 ∧ flag = true
  · rw [if_pos h]
    obtain ⟨rfl, rfl, rfl⟩ := h
    rw [put _ _ post _ _ 0 _ rfl (by simp [cchh]) (by simp [-List.reduceReplicate, cchh, ipl1rec, ipl2key]; omega), bk]
    rw [put _ _ post _ _ 144 _ rfl (by simp [-List.reduceReplicate, cchh, ipl1rec, ipl2key]) (by simp [-List.reduceReplicate, cchh, ipl1rec, ipl2key]; omega), bk]
    rw [volBytes_eq _ hl h8, bk]
    rw [put _ _ post _ _ 0 _ rfl (by simp [-List.reduceReplicate, cchh, ipl1rec, ipl2key]) (by simp [-List.reduceReplicate, cchh, ipl1rec, ipl2key, volAll_length]; omega), bk, bk]
    rw [put _ _ post _ _ 0 _ rfl (by simp [-List.reduceReplicate, cchh, ipl1rec, ipl2key, volAll_length]) (by simp [-List.reduceReplicate, cchh, ipl1rec, ipl2key, volAll_length]; omega)]
    have hv : (volAll s.label).take 4 ++ (volAll s.label).drop 4 = volAll s.label := List.take_append_drop _ _
    congr 3
    refine fin _ _ _ ?_ ?_
    · rw [freshRecs, if_pos ⟨rfl, rfl, rfl⟩]
      simp only [Spec.track, List.flatMap_cons, List.flatMap_nil, Spec.bytes, List.append_nil, List.append_assoc, hv]
      simp [-List.reduceReplicate, Spec.home, Spec.count, Spec.r0, Spec.endMark, cchh, u8, volAll_length, ipl1rec, ipl2key]
    · rw [freshRecs, if_pos ⟨rfl, rfl, rfl⟩]
      simp [-List.reduceReplicate, Spec.track, Spec.bytes, Spec.home, Spec.count, Spec.r0, Spec.endMark, cchh, volAll_length, ipl1rec, ipl2key]
      omega
  · rw [if_neg h]
    rw [put _ _ post _ _ 0 _ rfl (by simp [cchh]) (by simp [cchh]; omega), bk, bk]
    rw [put _ _ post _ _ 0 _ rfl (by simp [cchh]) (by simp [cchh]; omega)]
    congr 3
    refine fin _ _ _ ?_ ?_
    · rw [freshRecs, if_neg h]
      simp [Spec.track, Spec.home, Spec.bytes, Spec.count, Spec.r0, Spec.r1, Spec.endMark, cchh_eq _ _ hc hh]
    · rw [freshRecs, if_neg h]
      simp [Spec.track, Spec.home, Spec.bytes, Spec.count, Spec.r0, Spec.r1, Spec.endMark, cchh]
      omega

/-! ### Whole disks -/

theorem bk {α β : Type} (a : α) (f : α → Res β) : (Res.ok a).bind f = f a := rfl

theorem freshTrack_length (flag : Bool) (label : List Nat) (n cyl hd : Nat) (hn : 400 ≤ n) :
    (freshTrack flag label n cyl hd).length = n := by
  have : (Spec.track cyl hd (freshRecs flag label cyl hd)).length ≤ 400 := by
    unfold freshRecs
    split
    · simp [-List.reduceReplicate, Spec.track, Spec.bytes, Spec.home, Spec.count, Spec.r0, Spec.endMark, volAll_length, ipl1rec, ipl2key]
    · simp [-List.reduceReplicate, Spec.track, Spec.bytes, Spec.home, Spec.count, Spec.r0, Spec.r1, Spec.endMark]
  simp only [freshTrack, List.length_append, List.length_replicate]
  omega

theorem formatHeads_eq (flag : Bool) (cyl n : Nat) (hc : cyl < 65536) (hn : 400 ≤ n) : ∀ (k hd : Nat) (s : S) (pre post : List Nat),
    hd + k < 65536 → (∀ c ∈ s.label, c < 128) → s.label.length ≤ 8 → s.tsize = n → pre.length = hd * n →
    s.cbuf = some (pre ++ List.replicate (k * n) 0 ++ post) →
    formatHeads flag cyl k hd s =
      .ok { s with cbuf := some (pre ++ (List.range' hd k).flatMap (freshTrack flag s.label n cyl) ++ post) } := by
  intro k
  induction k with
  | zero => intro hd s pre post _ _ _ _ _ hb; simp at hb; simp [formatHeads, ← hb]
  | succ k ih =>
    intro hd s pre post hk hl h8 ht hp hb
    have hb' : s.cbuf = some (pre ++ List.replicate n 0 ++ (List.replicate (k * n) 0 ++ post)) := by
      rw [hb, show (k + 1) * n = n + k * n by rw [Nat.add_mul]; omega, ← List.replicate_append_replicate]
      simp only [List.append_assoc]
    have e := formatTrack_eq s flag cyl hd n pre _ hc (by omega) hl h8 hn hb'
    rw [hp] at e
    rw [formatHeads, show hd * s.tsize = hd * n by rw [ht], e, bk]
    refine (ih (hd + 1) { s with cbuf := some (pre ++ freshTrack flag s.label n cyl hd ++ (List.replicate (k * n) 0 ++ post)) }
      (pre ++ freshTrack flag s.label n cyl hd) post (by omega) hl h8 ht
      (by rw [List.length_append, freshTrack_length _ _ _ _ _ hn, hp, Nat.add_mul, Nat.one_mul]) (by simp)).trans ?_
    simp [List.range'_succ]

/-- The bytes of a formatted cylinder. -/
def freshCyl (flag : Bool) (label : List Nat) (n heads cyl : Nat) : List Nat :=
  (List.range heads).flatMap (freshTrack flag label n cyl)

theorem flatMap_length_const {α : Type} (f : α → List Nat) (n : Nat) : ∀ l : List α, (∀ x ∈ l, (f x).length = n) →
    (l.flatMap f).length = l.length * n := by
  intro l
  induction l with
  | nil => simp
  | cons a l ih =>
    intro h
    simp only [List.flatMap_cons, List.length_append, List.length_cons]
    rw [ih (fun x hx => h x (List.mem_cons_of_mem _ hx)), h a (by simp), Nat.add_mul]
    omega

theorem freshCyl_length (flag : Bool) (label : List Nat) (n heads cyl : Nat) (hn : 400 ≤ n) :
    (freshCyl flag label n heads cyl).length = heads * n := by
  rw [freshCyl, flatMap_length_const _ n _ (fun x _ => freshTrack_length _ _ _ _ _ hn)]
  simp

theorem writeAt_append (a r bs : List Nat) (pos : Nat) (h : a.length = pos) :
    writeAt (a ++ r) pos bs = a ++ bs ++ r.drop bs.length := by
  subst h
  simp [writeAt, List.take_append, List.drop_append]

theorem formatCyls_eq (flag : Bool) (n : Nat) (hn : 400 ≤ n) : ∀ (k cyl : Nat) (s : S) (a r : List Nat),
    cyl + k < 65536 → s.ty.heads < 65536 → (∀ c ∈ s.label, c < 128) → s.label.length ≤ 8 → s.tsize = n →
    s.cbuf = some (List.replicate (n * s.ty.heads) 0) → s.file = a ++ r → a.length = hdrSize + cyl * (n * s.ty.heads) →
    formatCyls flag k cyl s =
      .ok { s with file := a ++ (List.range' cyl k).flatMap (freshCyl flag s.label n s.ty.heads) ++ r.drop (k * (n * s.ty.heads)) } := by
  intro k
  induction k with
  | zero => intro cyl s a r _ _ _ _ _ _ hf _; simp [formatCyls, ← hf]
  | succ k ih =>
    intro cyl s a r hk hh hl h8 ht hb hf ha
    have e := formatHeads_eq flag cyl n (by omega) hn s.ty.heads 0 s [] [] (by omega) hl h8 ht (by simp)
      (by rw [hb, Nat.mul_comm]; simp)
    simp only [List.nil_append, List.append_nil, ← List.range_eq_range'] at e
    have hcl := freshCyl_length flag s.label n s.ty.heads cyl hn
    rw [formatCyls, e, bk]
    simp only [flush, ht]
    rw [show (List.range s.ty.heads).flatMap (freshTrack flag s.label n cyl) = freshCyl flag s.label n s.ty.heads cyl from rfl]
    rw [if_pos (by rw [hcl, Nat.mul_comm]; exact Nat.le_refl _), bk]
    rw [hf, writeAt_append a r _ _ ha.symm.symm, List.take_of_length_le (by rw [hcl, Nat.mul_comm]; exact Nat.le_refl _)]
    simp only [bk]
    have e2 : (freshCyl flag s.label n s.ty.heads cyl).drop (n * s.ty.heads) = [] :=
      List.drop_eq_nil_of_le (by rw [hcl, Nat.mul_comm]; exact Nat.le_refl _)
    rw [e2, List.append_nil]
    refine (ih (cyl + 1) { s with
        cbuf := some (List.replicate (n * s.ty.heads) 0)
        tsize := n
        file := a ++ freshCyl flag s.label n s.ty.heads cyl ++ r.drop (freshCyl flag s.label n s.ty.heads cyl).length }
      (a ++ freshCyl flag s.label n s.ty.heads cyl) (r.drop (freshCyl flag s.label n s.ty.heads cyl).length)
      (by omega) hh hl h8 rfl rfl rfl
      (by rw [List.length_append, ha, hcl, Nat.add_mul, Nat.one_mul, Nat.mul_comm n]; omega)).trans ?_
    simp only [hb, List.range'_succ, List.flatMap_cons, List.drop_drop, hcl, List.append_assoc]
    congr 6
    rw [Nat.add_mul, Nat.mul_comm s.ty.heads n]
    omega

theorem le_length (n v : Nat) : (le n v).length = n := by
  induction n generalizing v with
  | zero => rfl
  | succ n ih => simp [le, ih]

theorem magic_length : ("CKD_P370".toList.map (·.toNat)).length = 8 := by rfl

theorem header_length (t : DiskType) : (header t).length = hdrSize := by
  unfold header
  rw [List.length_append, List.length_append, List.length_append, List.length_append, List.length_append, magic_length,
    le_length, le_length, le_length, List.length_replicate]
  rfl

/-- The bytes of a formatted image after the header. -/
def freshImage (flag : Bool) (label : List Nat) (t : DiskType) : List Nat :=
  (List.range t.cyl).flatMap (freshCyl flag label (trackSize t) t.heads)

theorem sane (t : DiskType) (h : t ∈ diskTypes) :
    400 ≤ trackSize t ∧ t.cyl < 256 ∧ t.heads < 256 ∧ 0 < t.cyl ∧ 0 < t.heads ∧ trackSize t < 65536 ∧
    trackSize t * t.heads * 256 < 4294967296 ∧ t.dev < 256 ∧ t.bpt + 1 < trackSize t := by
  revert t; decide

theorem format_eq (s : S) (flag : Bool) (ht : s.ty ∈ diskTypes) (hb : s.cbuf = none) (hl : ∀ c ∈ s.label, c < 128)
    (h8 : s.label.length ≤ 8) :
    format s flag = .ok { s with
      tsize := trackSize s.ty
      cbuf := some (List.replicate (trackSize s.ty * s.ty.heads) 0)
      file := header s.ty ++ freshImage flag s.label s.ty ++ (s.file.drop hdrSize).drop (s.ty.cyl * (trackSize s.ty * s.ty.heads)) } := by
  have sn := sane _ ht
  have hw : writeAt s.file 0 (header s.ty) = header s.ty ++ s.file.drop hdrSize := by
    have := writeAt_append [] s.file (header s.ty) 0 rfl
    rw [header_length] at this
    simpa using this
  simp only [format, alloc, hb, Option.getD_none, hw]
  refine (formatCyls_eq flag (trackSize s.ty) sn.1 s.ty.cyl 0 { s with
      file := header s.ty ++ s.file.drop hdrSize
      tsize := trackSize s.ty
      cbuf := some (List.replicate (trackSize s.ty * s.ty.heads) 0) }
    (header s.ty) (s.file.drop hdrSize) (by omega) (by show s.ty.heads < _; omega) hl h8 rfl rfl rfl
    (by rw [header_length]; simp)).trans ?_
  simp only [freshImage, List.range_eq_range']

theorem drop_flatMap {α : Type} (f : α → List Nat) (n : Nat) (r : List Nat) : ∀ (l : List α) (i : Nat), (∀ x ∈ l, (f x).length = n) →
    i ≤ l.length → (l.flatMap f ++ r).drop (i * n) = (l.drop i).flatMap f ++ r := by
  intro l
  induction l with
  | nil => intro i _ hi; simp at hi; simp [hi]
  | cons a l ih =>
    intro i h hi
    cases i with
    | zero => simp
    | succ i =>
      have ha : (f a).length = n := h a (by simp)
      simp only [List.flatMap_cons, List.drop_succ_cons, List.append_assoc]
      rw [show (i + 1) * n = (f a).length + i * n by rw [Nat.add_mul, ha]; omega, List.drop_length_add_append]
      exact ih i (fun x hx => h x (List.mem_cons_of_mem _ hx)) (by simpa using hi)

theorem slice_range (f : Nat → List Nat) (n k i : Nat) (r : List Nat) (h : ∀ x < k, (f x).length = n) (hi : i < k) :
    ∃ r', ((List.range k).flatMap f ++ r).drop (i * n) = f i ++ r' := by
  rw [drop_flatMap f n r _ i (fun x hx => h x (by simpa using hx)) (by simp; omega)]
  refine ⟨((List.range k).drop (i + 1)).flatMap f ++ r, ?_⟩
  have hlt : i < (List.range k).length := by simpa using hi
  rw [List.drop_eq_getElem_cons hlt]
  simp

theorem fresh_slice (flag : Bool) (label : List Nat) (t : DiskType) (r : List Nat) (cyl hd : Nat) (ht : t ∈ diskTypes)
    (hc : cyl < t.cyl) (hh : hd < t.heads) :
    readAt (header t ++ freshImage flag label t ++ r) (hdrSize + (cyl * t.heads + hd) * trackSize t) (trackSize t) =
      freshTrack flag label (trackSize t) cyl hd := by
  have sn := sane t ht
  unfold readAt
  rw [← header_length t, List.append_assoc, List.drop_length_add_append]
  obtain ⟨r1, h1⟩ := slice_range (freshCyl flag label (trackSize t) t.heads) (t.heads * trackSize t) t.cyl cyl r
    (fun x _ => freshCyl_length _ _ _ _ _ sn.1) hc
  obtain ⟨r2, h2⟩ := slice_range (freshTrack flag label (trackSize t) cyl) (trackSize t) t.heads hd r1
    (fun x _ => freshTrack_length _ _ _ _ _ sn.1) hh
  have e : (cyl * t.heads + hd) * trackSize t = cyl * (t.heads * trackSize t) + hd * trackSize t := by
    rw [Nat.add_mul, Nat.mul_assoc]
  rw [e, ← List.drop_drop]
  show ((freshImage flag label t ++ r).drop _ |>.drop _).take _ = _
  unfold freshImage
  rw [h1]
  unfold freshCyl
  rw [h2, List.take_append_of_le_length (by rw [freshTrack_length _ _ _ _ _ sn.1]; exact Nat.le_refl _),
    List.take_of_length_le (by rw [freshTrack_length _ _ _ _ _ sn.1]; exact Nat.le_refl _)]

/-- C39: formatting a drive of any supported type, with any ASCII label and onto any file, succeeds, and every track of
every cylinder then holds a home address naming its own cylinder and head, record zero, and the empty record one; the
first track of a disk formatted as a volume holds the two loader records and the volume record instead of record one.
The image starts with the header of the drive type, and a file no longer than the image ends with its last track. -/
theorem C39_fresh_format (s : S) (flag : Bool) (ht : s.ty ∈ diskTypes) (hb : s.cbuf = none) (hl : ∀ c ∈ s.label, c < 128)
    (h8 : s.label.length ≤ 8) :
    ∃ s', format s flag = .ok s' ∧ s'.file.take hdrSize = header s.ty ∧
      (s.file.length ≤ hdrSize + s.ty.cyl * s.ty.heads * trackSize s.ty →
        s'.file.length = hdrSize + s.ty.cyl * s.ty.heads * trackSize s.ty) ∧
      ∀ cyl hd, cyl < s.ty.cyl → hd < s.ty.heads → ∃ recs pad,
        readAt s'.file (hdrSize + (cyl * s.ty.heads + hd) * trackSize s.ty) (trackSize s.ty) =
          Spec.track cyl hd (Spec.r0 cyl hd :: recs) ++ List.replicate pad 0 ∧
        (¬ (cyl = 0 ∧ hd = 0 ∧ flag = true) → recs = [Spec.r1 cyl hd]) ∧
        (cyl = 0 ∧ hd = 0 ∧ flag = true → ∃ ipl1 ipl2 vol,
          recs = [⟨0, 0, 1, [0xC9, 0xD7, 0xD3, 0xF1], ipl1⟩, ⟨0, 0, 2, [0xC9, 0xD7, 0xD3, 0xF2], ipl2⟩,
            ⟨0, 0, 3, [0xE5, 0xD6, 0xD3, 0xF1], [0xE5, 0xD6, 0xD3, 0xF1] ++ vol⟩] ∧
          ipl1.length = 24 ∧ ipl2.length = 144 ∧ vol.length = 76) := by
  refine ⟨_, format_eq s flag ht hb hl h8, ?_, ?_, ?_⟩
  · simp only [List.append_assoc]
    rw [List.take_append_of_le_length (by rw [header_length]; exact Nat.le_refl _),
      List.take_of_length_le (by rw [header_length]; exact Nat.le_refl _)]
  · intro hlen
    have hi : (freshImage flag s.label s.ty).length = s.ty.cyl * (s.ty.heads * trackSize s.ty) := by
      rw [freshImage, flatMap_length_const _ _ _ (fun x _ => freshCyl_length _ _ _ _ _ (sane _ ht).1)]
      simp
    have e : s.ty.cyl * s.ty.heads * trackSize s.ty = s.ty.cyl * (s.ty.heads * trackSize s.ty) := Nat.mul_assoc _ _ _
    simp only [List.length_append, header_length, hi, List.length_drop]
    rw [e] at hlen ⊢
    rw [Nat.mul_comm (trackSize s.ty)]
    omega
  · intro cyl hd hc hh
    have e := fresh_slice flag s.label s.ty ((s.file.drop hdrSize).drop (s.ty.cyl * (trackSize s.ty * s.ty.heads))) cyl hd ht hc hh
    refine ⟨(freshRecs flag s.label cyl hd).tail,
      trackSize s.ty - (Spec.track cyl hd (freshRecs flag s.label cyl hd)).length, e.trans ?_, ?_, ?_⟩
    · unfold freshTrack
      rw [show Spec.r0 cyl hd :: (freshRecs flag s.label cyl hd).tail = freshRecs flag s.label cyl hd by
        unfold freshRecs
        split
        · next h => obtain ⟨rfl, rfl, -⟩ := h; rfl
        · rfl]
    · intro h
      rw [freshRecs, if_neg h]; rfl
    · intro h
      rw [freshRecs, if_pos h]
      exact ⟨ipl1rec.drop 4, List.replicate 144 0, volName8 s.label ++ volrec.drop 16, rfl, rfl, by simp,
        by simp [volName8, volrec]⟩

/-- The hypotheses of `C39_fresh_format` are met by every freshly configured drive. -/
example : (fresh ⟨"2311", 203, 10, 3717, 0x11, 36, 36, 36, 6, 13⟩).ty ∈ diskTypes ∧
    (fresh ⟨"2311", 203, 10, 3717, 0x11, 36, 36, 36, 6, 13⟩).cbuf = none := by decide

end Verif.Dasd
