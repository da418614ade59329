import Verif.Dasd.Format
import Verif.Xlat.Props
/-!
# Attaching a formatted disk, and its volume label (C40, C88)
-/
namespace Verif.Dasd
open Verif.Card (Res look)
open Verif.Xlat

theorem ofLe_le : ∀ (n v : Nat), v < 256 ^ n → ofLe (le n v) = v := by
  intro n
  induction n with
  | zero => intro v h; simp at h; simp [le, ofLe, h]
  | succ n ih =>
    intro v h
    simp only [le, ofLe]
    rw [ih (v / 256) (by rw [Nat.div_lt_iff_lt_mul (by decide)]; rwa [Nat.pow_succ] at h)]
    omega

theorem readAt_mid (a m r : List Nat) : readAt (a ++ m ++ r) a.length m.length = m := by
  unfold readAt
  rw [List.append_assoc, List.drop_left, List.take_left]

/-- A file that starts with the header of a drive type. -/
theorem hdr_fields (t : DiskType) (r : List Nat) (ht : t ∈ diskTypes) :
    magic (header t ++ r) = true ∧ hdrHeads (header t ++ r) = t.heads ∧ hdrTrack (header t ++ r) = trackSize t ∧
    hdrDev (header t ++ r) = t.dev := by
  have sn := sane t ht
  have hm := magic_length
  generalize hM : "CKD_P370".toList.map (·.toNat) = M at hm
  have hh : header t = M ++ (le 4 t.heads ++ (le 4 (trackSize t) ++ ([u8 t.dev, 0] ++ (le 2 t.cyl ++ List.replicate 492 0)))) := by
    unfold header; rw [hM]; simp only [List.append_assoc]
  refine ⟨?_, ?_, ?_, ?_⟩
  · simp only [magic, hM]
    have : hdrSize ≤ (header t ++ r).length := by rw [List.length_append, header_length]; omega
    rw [decide_eq_true this, hh, List.append_assoc, List.take_append_of_le_length (by omega), List.take_of_length_le (by omega)]
    simp
  · have := readAt_mid M (le 4 t.heads) (le 4 (trackSize t) ++ ([u8 t.dev, 0] ++ (le 2 t.cyl ++ List.replicate 492 0)) ++ r)
    rw [hm, le_length] at this
    unfold hdrHeads
    rw [hh]
    simp only [List.append_assoc] at this ⊢
    rw [this, ofLe_le _ _ (by omega)]
  · have := readAt_mid (M ++ le 4 t.heads) (le 4 (trackSize t)) (([u8 t.dev, 0] ++ (le 2 t.cyl ++ List.replicate 492 0)) ++ r)
    rw [List.length_append, hm, le_length, le_length] at this
    unfold hdrTrack
    rw [hh]
    simp only [List.append_assoc] at this ⊢
    rw [this, ofLe_le _ _ (by omega)]
  · have := readAt_mid (M ++ le 4 t.heads ++ le 4 (trackSize t)) [u8 t.dev] ([0] ++ (le 2 t.cyl ++ List.replicate 492 0) ++ r)
    rw [List.length_append, List.length_append, hm, le_length, le_length] at this
    unfold hdrDev
    have e : ((header t ++ r).drop 16).take 1 = [u8 t.dev] := by
      rw [hh]
      simp only [List.append_assoc, List.cons_append, List.nil_append] at this ⊢
      exact this
    have e2 := congrArg (·[0]?) e
    rw [List.getD_eq_getElem?_getD]
    simp only [List.getElem?_take, List.getElem?_drop] at e2
    rw [show 16 = 16 + 0 from rfl, show (header t ++ r)[16 + 0]? = some (u8 t.dev) by simpa using e2]
    simp only [Option.getD_some, u8]
    omega

/-- The drive type found for an image of type `t` can only be `t`. -/
theorem matchType_eq (t : DiskType) (r : List Nat) (ht : t ∈ diskTypes) :
    matchType (header t ++ r) = some t ∨ matchType (header t ++ r) = none := by
  unfold matchType
  rw [(hdr_fields t r ht).2.1, (hdr_fields t r ht).2.2.1, (hdr_fields t r ht).2.2.2]
  cases h : List.find? _ diskTypes with
  | none => exact Or.inr rfl
  | some u =>
    left
    have h1 := List.find?_some h
    have h2 := List.mem_of_find?_eq_some h
    have key : ∀ t ∈ diskTypes, ∀ u ∈ diskTypes, t.dev = u.dev → u = t := by decide
    simp only [Bool.and_eq_true, beq_iff_eq] at h1
    rw [key t ht u h2 h1.1.1.1]

/-- The fixed bytes of a formatted first track up to the volume name. -/
def volPre : List Nat :=
  Spec.home 0 0 ++ Spec.bytes (Spec.r0 0 0) ++ Spec.bytes ⟨0, 0, 1, ipl1rec.take 4, ipl1rec.drop 4⟩ ++
  Spec.bytes ⟨0, 0, 2, ipl2key, List.replicate 144 0⟩ ++ [0, 0, 0, 0, 3, 4, 0, 80] ++ volrec.take 8

theorem freshTrack_pre (label : List Nat) (n : Nat) :
    ∃ r, freshTrack true label n 0 0 = volPre ++ (volName8 label ++ r) := by
  refine ⟨volrec.drop 16 ++ Spec.endMark ++
    List.replicate (n - (Spec.track 0 0 (freshRecs true label 0 0)).length) 0, ?_⟩
  have hv : (volAll label).take 4 ++ (volAll label).drop 4 = volAll label := List.take_append_drop _ _
  have hk : ((volAll label).take 4).length = 4 := by rw [List.length_take, volAll_length]; rfl
  have hd : ((volAll label).drop 4).length = 80 := by rw [List.length_drop, volAll_length]
  have e : Spec.bytes ⟨0, 0, 3, (volAll label).take 4, (volAll label).drop 4⟩ =
      [0, 0, 0, 0, 3, 4, 0, 80] ++ (volrec.take 8 ++ (volName8 label ++ volrec.drop 16)) := by
    unfold Spec.bytes
    simp only [Spec.count, hk, hd]
    rw [List.append_assoc, hv, volAll, List.append_assoc]
  simp only [freshTrack, Spec.track]
  generalize n - _ = m
  rw [freshRecs, if_pos ⟨rfl, rfl, rfl⟩]
  simp only [List.flatMap_cons, List.flatMap_nil, List.append_nil, e, volPre]
  simp only [List.append_assoc]

theorem volPre_length : volPre.length = 229 := by decide +kernel

theorem getB_pre (s : S) (a r : List Nat) (i v : Nat) (hb : s.cbuf = some (a ++ r)) (hv : a[i]? = some v) :
    getB s i = .ok v := by
  have hi : i < a.length := (List.getElem?_eq_some_iff.mp hv).1
  simp only [getB, hb]
  rw [List.getElem?_append_left hi, hv]
  rfl

/-- The name characters, translated. -/
def nameBack : List Nat → Res (List Nat)
  | [] => .ok []
  | v :: vs => (look (ebcdicToAscii v)).bind fun c => (nameBack vs).bind fun cs => .ok (c :: cs)

theorem volName_eq (s : S) (r0 : Nat) (b : List Nat) (hb : s.cbuf = some b) : ∀ (vs r : List Nat) (i : Nat),
    b.drop (r0 + 16 + i) = vs ++ r → volName s r0 vs.length i = nameBack vs := by
  intro vs
  induction vs with
  | nil => intros; rfl
  | cons v vs ih =>
    intro r i hd
    have h1 : b[r0 + 16 + i]? = some v := by
      have := congrArg (·[0]?) hd
      simpa using this
    have hg : getB s (r0 + 16 + i) = .ok v := by simp only [getB, hb, h1]; rfl
    have h2 : b.drop (r0 + 16 + (i + 1)) = vs ++ r := by
      have := congrArg (List.drop 1) hd
      rw [List.drop_drop] at this
      simpa [Nat.add_assoc] using this
    simp only [List.length_cons, volName, hg, bk, nameBack, ih r (i + 1) h2]

theorem readLabel_fresh (s : S) (label r : List Nat) (hb : s.cbuf = some (volPre ++ (volName8 label ++ r))) :
    readLabel s = (nameBack (volName8 label)).bind fun n => .ok { s with label := n } := by
  have g : ∀ i v, volPre[i]? = some v → getB s i = .ok v := fun i v hv => getB_pre s _ _ i v hb hv
  have hs : ∀ p k h l, getB s (p + 5) = .ok k → getB s (p + 6) = .ok h → getB s (p + 7) = .ok l →
      skipRec s p = .ok (p + 8 + k + ((h <<< 8) ||| l)) := by
    intro p k h l a b c
    simp only [skipRec, a, b, c, bk]
  unfold readLabel
  rw [hs 5 0 0 8 (g _ _ (by decide +kernel)) (g _ _ (by decide +kernel)) (g _ _ (by decide +kernel)), bk]
  rw [hs _ 4 0 24 (g _ _ (by decide +kernel)) (g _ _ (by decide +kernel)) (g _ _ (by decide +kernel)), bk]
  rw [hs _ 4 0 144 (g _ _ (by decide +kernel)) (g _ _ (by decide +kernel)) (g _ _ (by decide +kernel)), bk]
  show (getB s (213 + 5)).bind _ = _
  rw [g (213 + 5) 4 (by decide +kernel), bk]
  show (getB s (213 + 6)).bind _ = _
  rw [g (213 + 6) 0 (by decide +kernel), bk]
  show (getB s (213 + 7)).bind _ = _
  rw [g (213 + 7) 80 (by decide +kernel), bk]
  rw [if_neg (by decide)]
  have hv : isVol s 213 8 0 = .ok true := by
    simp only [isVol, g (213 + 8 + 0) 0xE5 (by decide +kernel), g (213 + 8 + (0 + 1)) 0xD6 (by decide +kernel),
      g (213 + 8 + (0 + 1 + 1)) 0xD3 (by decide +kernel), g (213 + 8 + (0 + 1 + 1 + 1)) 0xF1 (by decide +kernel),
      g (213 + 8 + (0 + 1 + 1 + 1 + 1)) 0xE5 (by decide +kernel), g (213 + 8 + (0 + 1 + 1 + 1 + 1 + 1)) 0xD6 (by decide +kernel),
      g (213 + 8 + (0 + 1 + 1 + 1 + 1 + 1 + 1)) 0xD3 (by decide +kernel),
      g (213 + 8 + (0 + 1 + 1 + 1 + 1 + 1 + 1 + 1)) 0xF1 (by decide +kernel), bk]
    rfl
  show (isVol s 213 8 0).bind _ = _
  rw [hv, bk, if_neg (by decide)]
  have hn := volName_eq s 213 _ hb (volName8 label) r 0 (by
    show List.drop 229 _ = _
    rw [← volPre_length, List.drop_left])
  rw [show (volName8 label).length = 8 by simp [volName8]] at hn
  show (volName s 213 8 0).bind _ = _
  rw [hn]

/-! ### Attaching -/

/-- Attaching a file that holds a formatted volume of the drive's own type. -/
theorem attach_image (s : S) (label r : List Nat) (b : Option (List Nat)) (ht : s.ty ∈ diskTypes)
    (hb : s.cbuf = b) (hbl : ∀ x, b = some x → x.length = trackSize s.ty * s.ty.heads)
    (hf : s.file = header s.ty ++ freshImage true label s.ty ++ r) :
    openImage s =
    (nameBack (volName8 label)).bind fun n => .ok { s with
      tsize := trackSize s.ty, cbuf := some (freshCyl true label (trackSize s.ty) s.ty.heads 0),
      fpos := hdrSize, online := true, ready := true, cyl := 0, tstart := 0, label := n } := by
  have sn := sane _ ht
  have hfl := hdr_fields s.ty (freshImage true label s.ty ++ r) ht
  rw [← List.append_assoc, ← hf] at hfl
  have e1 : retype s = s := by
    unfold retype
    have := matchType_eq s.ty (freshImage true label s.ty ++ r) ht
    rw [← List.append_assoc, ← hf] at this
    rcases this with h | h <;> rw [h]
  have e2 : u32 (trackSize s.ty * s.ty.heads) = trackSize s.ty * s.ty.heads := Nat.mod_eq_of_lt (by omega)
  simp only [openImage, e1, hfl.2.1, hfl.2.2.1, e2]
  have e3 : ∃ r', readAt s.file hdrSize (trackSize s.ty * s.ty.heads) = freshCyl true label (trackSize s.ty) s.ty.heads 0 ∧ r' = r := by
    refine ⟨r, ?_, rfl⟩
    unfold readAt
    rw [hf, List.append_assoc, ← header_length s.ty, List.drop_left]
    obtain ⟨r1, h1⟩ := slice_range (freshCyl true label (trackSize s.ty) s.ty.heads) (s.ty.heads * trackSize s.ty) s.ty.cyl 0 r
      (fun x _ => freshCyl_length _ _ _ _ _ sn.1) sn.2.2.2.1
    simp only [Nat.zero_mul, List.drop_zero] at h1
    unfold freshImage
    rw [h1, show trackSize s.ty * s.ty.heads = (freshCyl true label (trackSize s.ty) s.ty.heads 0).length by
      rw [freshCyl_length _ _ _ _ _ sn.1, Nat.mul_comm], List.take_left]
  obtain ⟨-, e3, -⟩ := e3
  have hcl : (freshCyl true label (trackSize s.ty) s.ty.heads 0).length = trackSize s.ty * s.ty.heads := by
    rw [freshCyl_length _ _ _ _ _ sn.1, Nat.mul_comm]
  have e4 : (s.cbuf.getD (List.replicate (trackSize s.ty * s.ty.heads) 0)).length = trackSize s.ty * s.ty.heads := by
    rw [hb]
    cases b with
    | none => simp
    | some x => exact hbl x rfl
  simp only [load, alloc, e3, hcl, e4, Nat.le_refl, if_true]
  rw [List.drop_eq_nil_of_le (by rw [e4]; exact Nat.le_refl _), List.append_nil, bk]
  obtain ⟨r1, h1⟩ := freshTrack_pre label (trackSize s.ty)
  obtain ⟨k, hk⟩ : ∃ k, s.ty.heads = k + 1 := ⟨s.ty.heads - 1, by omega⟩
  have h2 : freshCyl true label (trackSize s.ty) s.ty.heads 0 = volPre ++ (volName8 label ++ (r1 ++
      (List.range' 1 k).flatMap (freshTrack true label (trackSize s.ty) 0))) := by
    unfold freshCyl
    rw [hk, List.range_eq_range', List.range'_succ, List.flatMap_cons, h1]
    simp only [List.append_assoc]
  rw [readLabel_fresh _ label _ (by rw [h2])]

/-- Attaching and formatting a new disk. -/
theorem attach_format (s : S) (file : List Nat) (ht : s.ty ∈ diskTypes) (hb : s.cbuf = none) (hl : ∀ c ∈ s.label, c < 128)
    (h8 : s.label.length ≤ 8) : ∃ r,
    attach s file true = (nameBack (volName8 s.label)).bind fun n => .ok { s with
      opened := true, file := header s.ty ++ freshImage true s.label s.ty ++ r,
      tsize := trackSize s.ty, cbuf := some (freshCyl true s.label (trackSize s.ty) s.ty.heads 0),
      fpos := hdrSize, online := true, ready := true, cyl := 0, tstart := 0, label := n } := by
  refine ⟨(file.drop hdrSize).drop (s.ty.cyl * (trackSize s.ty * s.ty.heads)), ?_⟩
  unfold attach
  rw [if_pos (Or.inr rfl)]
  have hfe := format_eq { s with opened := true, file := file } true ht hb hl h8
  rw [hfe, bk]
  exact attach_image _ s.label _ (some (List.replicate (trackSize s.ty * s.ty.heads) 0)) ht rfl
    (fun x hx => by cases hx; simp) rfl

/-- Attaching a disk formatted earlier, on a drive of the same type. -/
theorem attach_again (s : S) (label r : List Nat) (ht : s.ty ∈ diskTypes) (hb : s.cbuf = none) :
    attach s (header s.ty ++ freshImage true label s.ty ++ r) false =
      (nameBack (volName8 label)).bind fun n => .ok { s with
      opened := true, file := header s.ty ++ freshImage true label s.ty ++ r,
      tsize := trackSize s.ty, cbuf := some (freshCyl true label (trackSize s.ty) s.ty.heads 0),
      fpos := hdrSize, online := true, ready := true, cyl := 0, tstart := 0, label := n } := by
  unfold attach
  rw [if_neg (by
    rw [List.append_assoc, (hdr_fields s.ty _ ht).1]; decide), bk]
  exact attach_image { s with opened := true, file := header s.ty ++ freshImage true label s.ty ++ r } label r none ht hb
    (fun x hx => by cases hx) rfl

namespace Spec

/-- A label character the translation tables carry there and back (C12): printable, and none of `[`, `]`, `|`. -/
abbrev Good (c : Nat) : Prop := 0x20 ≤ c ∧ c < 0x7f ∧ c ≠ '['.toNat ∧ c ≠ ']'.toNat ∧ c ≠ '|'.toNat

/-- The label as the operator sees it: eight characters, blank padded. -/
def padded (volid : List Nat) : List Nat := (volid ++ List.replicate 8 0x20).take 8

end Spec

theorem nameBack_map : ∀ (l m : List Nat), l.map ebcdicToAscii = m.map some → nameBack l = .ok m := by
  intro l
  induction l with
  | nil => intro m h; cases m <;> simp_all [nameBack]
  | cons a l ih =>
    intro m h
    cases m with
    | nil => simp at h
    | cons b m =>
      simp only [List.map_cons, List.cons.injEq] at h
      simp only [nameBack, h.1, look, bk, ih m h.2]

theorem setVolid_padded (s : S) (volid : List Nat) : (setVolid s volid).label = Spec.padded volid := by
  simp only [setVolid, Spec.padded, List.take_append, List.take_replicate]
  congr 2
  omega

theorem padded_length (volid : List Nat) : (Spec.padded volid).length = 8 := by
  simp [Spec.padded]

theorem padded_good (volid : List Nat) (h : ∀ c ∈ volid, Spec.Good c) : ∀ c ∈ Spec.padded volid, Spec.Good c := by
  intro c hc
  have := List.mem_of_mem_take hc
  rcases List.mem_append.mp this with h1 | h1
  · exact h c h1
  · rw [List.eq_of_mem_replicate h1]; decide

theorem nameBack_good (label : List Nat) (h8 : label.length = 8) (h : ∀ c ∈ label, Spec.Good c) :
    nameBack (volName8 label) = .ok label := by
  refine nameBack_map _ _ ?_
  have key : ∀ c, Spec.Good c → ebcdicToAscii (ebc c) = some c := by
    intro c ⟨h1, h2, h3⟩
    have h4 := (C12_round_trip_partial c h1 h2).mpr h3
    unfold ebc
    cases h5 : asciiToEbcdic c with
    | none => rw [h5] at h4; cases h4
    | some e => rw [h5] at h4; exact h4
  rw [volName8, List.map_map]
  refine List.ext_getElem? fun i => ?_
  simp only [List.getElem?_map]
  by_cases hi : i < 8
  · have hl : i < label.length := by omega
    have hg := h _ (List.getElem_mem hl)
    rw [List.getElem?_eq_getElem (by simpa using hi), List.getElem?_eq_getElem hl]
    simp only [List.getElem_range, Option.map_some, Function.comp]
    have hd : label.getD i 0 = label[i] := by
      rw [List.getD_eq_getElem?_getD, List.getElem?_eq_getElem hl]; rfl
    rw [hd, if_neg (by have := hg.1; omega), key _ hg]
  · rw [List.getElem?_eq_none (by simp; omega), List.getElem?_eq_none (by omega)]
    rfl

/-- C40, partial: for every drive type, file and volume name without `[`, `]` and `|`, setting the name and attaching with
formatting shows the name, blank padded to eight characters; and so does attaching the image again, on a fresh drive of
that type and without formatting.  (The three excluded characters do not survive the translation tables,
`C40_violated_bracket`.) -/
theorem C40_label_partial (t : DiskType) (file volid : List Nat) (ht : t ∈ diskTypes) (hv : ∀ c ∈ volid, Spec.Good c) :
    ∃ s, attach (setVolid (fresh t) volid) file true = .ok s ∧ s.label = Spec.padded volid ∧
      ∃ s2, attach (fresh t) s.file false = .ok s2 ∧ s2.label = Spec.padded volid ∧ s2.file = s.file := by
  have hg := padded_good volid hv
  have hl := setVolid_padded (fresh t) volid
  obtain ⟨r, hr⟩ := attach_format (setVolid (fresh t) volid) file ht rfl
    (by rw [hl]; exact fun c hc => Nat.lt_trans (hg c hc).2.1 (by decide)) (by rw [hl, padded_length]; exact Nat.le_refl _)
  rw [hl, nameBack_good _ (padded_length _) hg, bk] at hr
  refine ⟨_, hr, rfl, ?_⟩
  have ha := attach_again (fresh t) (Spec.padded volid) r ht rfl
  rw [nameBack_good _ (padded_length _) hg, bk] at ha
  exact ⟨_, ha, rfl, rfl⟩

/-- `SYSRES` is such a name. -/
example : ∀ c ∈ "SYSRES".toList.map (·.toNat), Spec.Good c := by decide

/-- C40 fails for `[`: the name `A[B` comes back different on every drive type. -/
theorem C40_violated_bracket (t : DiskType) (file : List Nat) (ht : t ∈ diskTypes) :
    ∃ s, attach (setVolid (fresh t) ("A[B".toList.map (·.toNat))) file true = .ok s ∧
      s.label ≠ Spec.padded ("A[B".toList.map (·.toNat)) := by
  have hl := setVolid_padded (fresh t) ("A[B".toList.map (·.toNat))
  obtain ⟨r, hr⟩ := attach_format (setVolid (fresh t) ("A[B".toList.map (·.toNat))) file ht rfl
    (by rw [hl]; decide) (by rw [hl, padded_length]; exact Nat.le_refl _)
  rw [hl] at hr
  have e : ∃ n, nameBack (volName8 (Spec.padded ("A[B".toList.map (·.toNat)))) = .ok n ∧
      n ≠ Spec.padded ("A[B".toList.map (·.toNat)) := by
    cases h : nameBack (volName8 (Spec.padded ("A[B".toList.map (·.toNat)))) with
    | ok n =>
      refine ⟨n, rfl, fun hn => ?_⟩
      rw [hn] at h
      revert h
      decide +kernel
    | oob => exact absurd h (by decide +kernel)
    | fuel => exact absurd h (by decide +kernel)
  obtain ⟨n, h1, h2⟩ := e
  rw [h1, bk] at hr
  exact ⟨_, hr, h2⟩

/-- A label with a character above 127 makes formatting index outside the translation table. -/
theorem C40_violated_non_ascii (label : List Nat) (c : Nat) (h : label.getD 0 0 = c) (hc : 128 ≤ c) :
    volBytes label volIdx = .oob := by
  have ha : asciiToEbcdic c = none := by
    unfold asciiToEbcdic
    exact List.getElem?_eq_none (by rw [show asciiToEbcdicTab.length = 128 by decide +kernel]; exact hc)
  have e : volIdx = [(0, 0xE5), (1, 0xD6), (2, 0xD3), (3, 0xF1), (4, 0xE5), (5, 0xD6), (6, 0xD3), (7, 0xF1), (8, 0xF1)] ++
      volIdx.drop 9 := by decide +kernel
  rw [e]
  have b1 : ∀ (p v : Nat) (rest : List (Nat × Nat)), p < 8 → volBytes label rest = .oob → volBytes label ((p, v) :: rest) = .oob := by
    intro p v rest hp hr
    simp only [volBytes, hr]
    rw [if_neg (by omega)]
    rfl
  have b2 : ∀ rest, volBytes label ((8, 0xF1) :: rest) = .oob := by
    intro rest
    have hz : label.getD (8 - 8) 0 ≠ 0 := by rw [show 8 - 8 = 0 from rfl, h]; omega
    have hp : 8 ≤ 8 ∧ 8 ≤ 16 ∧ label.getD (8 - 8) 0 ≠ 0 := ⟨by decide, by decide, hz⟩
    rw [volBytes, if_pos hp, show 8 - 8 = 0 from rfl, h, ha]
    rfl
  exact b1 _ _ _ (by decide) (b1 _ _ _ (by decide) (b1 _ _ _ (by decide) (b1 _ _ _ (by decide) (b1 _ _ _ (by decide)
    (b1 _ _ _ (by decide) (b1 _ _ _ (by decide) (b1 _ _ _ (by decide) (b2 _))))))))

/-! ### The table of contents pointer (C88) -/

namespace Spec

/-- Where the data of the volume record of a formatted image starts: behind the file header, the home address, records
zero, one and two, the count field and the key. -/
def volData : Nat := 512 + 5 + (8 + 8) + (8 + 4 + 24) + (8 + 4 + 144) + 8 + 4

/-- The address of the volume table of contents, five bytes after `VOL1`, the six character name and the security byte:
two of cylinder, two of head, one of record. -/
def vtoc (file : List Nat) : List Nat := readAt file (volData + 11) 5

/-- Its cylinder. -/
def vtocCyl (file : List Nat) : Nat := (vtoc file).getD 0 0 * 256 + (vtoc file).getD 1 0

end Spec

theorem vtoc_eq (label r : List Nat) (t : DiskType) (ht : t ∈ diskTypes) :
    Spec.vtoc (header t ++ freshImage true label t ++ r) = [(volName8 label).getD 7 0, 0, 0, 1, 1] := by
  have sn := sane t ht
  have e : ∃ r', freshImage true label t ++ r = volPre ++ (volName8 label ++ volrec.drop 16) ++ r' := by
    obtain ⟨r1, h1⟩ := slice_range (freshCyl true label (trackSize t) t.heads) (t.heads * trackSize t) t.cyl 0 r
      (fun x _ => freshCyl_length _ _ _ _ _ sn.1) sn.2.2.2.1
    obtain ⟨r2, h2⟩ := slice_range (freshTrack true label (trackSize t) 0) (trackSize t) t.heads 0 r1
      (fun x _ => freshTrack_length _ _ _ _ _ sn.1) sn.2.2.2.2.1
    simp only [Nat.zero_mul, List.drop_zero] at h1 h2
    unfold freshImage
    rw [h1]
    unfold freshCyl
    rw [h2]
    have hv : (volAll label).take 4 ++ (volAll label).drop 4 = volAll label := List.take_append_drop _ _
    have hk : ((volAll label).take 4).length = 4 := by rw [List.length_take, volAll_length]; rfl
    have hd : ((volAll label).drop 4).length = 80 := by rw [List.length_drop, volAll_length]
    have e : Spec.bytes ⟨0, 0, 3, (volAll label).take 4, (volAll label).drop 4⟩ =
        [0, 0, 0, 0, 3, 4, 0, 80] ++ (volrec.take 8 ++ (volName8 label ++ volrec.drop 16)) := by
      unfold Spec.bytes
      simp only [Spec.count, hk, hd]
      rw [List.append_assoc, hv, volAll, List.append_assoc]
    refine ⟨Spec.endMark ++ List.replicate (trackSize t - (Spec.track 0 0 (freshRecs true label 0 0)).length) 0 ++ r2, ?_⟩
    simp only [freshTrack, Spec.track]
    generalize trackSize t - _ = m
    rw [freshRecs, if_pos ⟨rfl, rfl, rfl⟩]
    simp only [List.flatMap_cons, List.flatMap_nil, List.append_nil, e, volPre]
    simp only [List.append_assoc]
  obtain ⟨r', e⟩ := e
  rw [List.append_assoc, e]
  have hn : (volName8 label).length = 8 := by simp [volName8]
  obtain ⟨a, b, hab, ha⟩ : ∃ a b, volName8 label = a ++ [b] ∧ a.length = 7 :=
    ⟨(volName8 label).take 7, (volName8 label)[7], by
      rw [List.take_append_getElem]
      exact (List.take_of_length_le (by omega)).symm, by simp [hn]⟩
  have hb : (volName8 label).getD 7 0 = b := by
    rw [hab, List.getD_eq_getElem?_getD, ← ha]
    simp
  rw [hb, hab]
  have hr : volrec.drop 16 = [0, 0, 1, 1] ++ volrec.drop 20 := by decide +kernel
  have := readAt_mid (header t ++ volPre ++ a) [b, 0, 0, 1, 1] (volrec.drop 20 ++ r')
  rw [List.length_append, List.length_append, header_length, volPre_length, ha] at this
  unfold Spec.vtoc
  rw [hr, show Spec.volData + 11 = hdrSize + 229 + 7 from rfl]
  simpa [List.append_assoc] using this

/-- C88 fails: whenever a disk of any type is formatted with a name of at most seven characters, the volume record
points to a table of contents on cylinder 16384, which no drive has. -/
theorem C88_violated_named (t : DiskType) (file volid : List Nat) (ht : t ∈ diskTypes) (hv : ∀ c ∈ volid, Spec.Good c)
    (h7 : volid.length ≤ 7) :
    ∃ s, attach (setVolid (fresh t) volid) file true = .ok s ∧ Spec.vtocCyl s.file = 16384 ∧ t.cyl < Spec.vtocCyl s.file := by
  have hg := padded_good volid hv
  have hl := setVolid_padded (fresh t) volid
  obtain ⟨r, hr⟩ := attach_format (setVolid (fresh t) volid) file ht rfl
    (by rw [hl]; exact fun c hc => Nat.lt_trans (hg c hc).2.1 (by decide)) (by rw [hl, padded_length]; exact Nat.le_refl _)
  rw [hl, nameBack_good _ (padded_length _) hg, bk] at hr
  have hn : (volName8 (Spec.padded volid)).getD 7 0 = 0x40 := by
    have hp : (Spec.padded volid).getD 7 0 = 0x20 := by
      rw [List.getD_eq_getElem?_getD, Spec.padded, List.getElem?_take, if_pos (by decide), List.getElem?_append_right h7,
        List.getElem?_replicate, if_pos (by omega)]
      rfl
    have : (volName8 (Spec.padded volid)).getD 7 0 =
        if (Spec.padded volid).getD 7 0 = 0 then volrec.getD (8 + 7) 0 else ebc ((Spec.padded volid).getD 7 0) := rfl
    rw [this, hp]
    decide +kernel
  refine ⟨_, hr, ?_⟩
  have hc : Spec.vtocCyl (header t ++ freshImage true (Spec.padded volid) t ++ r) = 16384 := by
    unfold Spec.vtocCyl
    rw [vtoc_eq _ _ _ ht, hn]
    rfl
  have : t.cyl < 256 := (sane t ht).2.1
  exact ⟨hc, show t.cyl < Spec.vtocCyl (header t ++ freshImage true (Spec.padded volid) t ++ r) by omega⟩

/-- C88, partial: a disk formatted without a name points to record one of cylinder zero, head one. -/
theorem C88_default_partial (t : DiskType) (file : List Nat) (ht : t ∈ diskTypes) :
    ∃ s, attach (fresh t) file true = .ok s ∧ Spec.vtoc s.file = [0, 0, 0, 1, 1] := by
  obtain ⟨r, hr⟩ := attach_format (fresh t) file ht rfl (by intro c hc; cases hc) (Nat.zero_le _)
  have h : ∃ n, nameBack (volName8 (fresh t).label) = .ok n := by
    refine ⟨[0x31, 0x31, 0x31, 0x31, 0x31, 0x31, 0x20, 0], ?_⟩
    show nameBack (volName8 []) = _
    decide +kernel
  obtain ⟨n, h⟩ := h
  rw [h, bk] at hr
  refine ⟨_, hr, ?_⟩
  show Spec.vtoc (header t ++ freshImage true [] t ++ r) = _
  rw [vtoc_eq _ _ _ ht]
  decide +kernel

end Verif.Dasd
