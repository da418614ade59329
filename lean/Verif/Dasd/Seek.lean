import Verif.Dasd.Frame
import Verif.Dasd.Label
/-!
# Moving between cylinders keeps what is on them
-/
namespace Verif.Dasd
open Verif.Card (Res look)

theorem writeAt_get (f bs : List Nat) (pos i : Nat) (h : pos + bs.length ≤ f.length) :
    (writeAt f pos bs)[i]? = if i < pos then f[i]? else if i < pos + bs.length then bs[i - pos]? else f[i]? := by
  have e : pos - f.length = 0 := by omega
  unfold writeAt
  rw [e]
  simp only [List.replicate_zero, List.append_nil, List.append_assoc]
  rw [List.getElem?_append, List.length_take, Nat.min_eq_left (by omega)]
  split
  · next hi => rw [List.getElem?_take, if_pos hi]
  · next hi =>
    rw [List.getElem?_append]
    split
    · next hj => rw [if_pos (by omega)]
    · next hj =>
      rw [if_neg (by omega), List.getElem?_drop]
      congr 1; omega

theorem readAt_get (f : List Nat) (pos n i : Nat) : (readAt f pos n)[i]? = if i < n then f[pos + i]? else none := by
  unfold readAt
  rw [List.getElem?_take, List.getElem?_drop]

theorem writeAt_length (f bs : List Nat) (pos : Nat) (h : pos + bs.length ≤ f.length) : (writeAt f pos bs).length = f.length := by
  unfold writeAt
  simp
  omega

theorem readAt_length (f : List Nat) (pos n : Nat) (h : pos + n ≤ f.length) : (readAt f pos n).length = n := by
  unfold readAt; simp; omega

theorem read_back (f bs : List Nat) (pos : Nat) (h : pos + bs.length ≤ f.length) :
    readAt (writeAt f pos bs) pos bs.length = bs := by
  apply List.ext_getElem?
  intro i
  rw [readAt_get, writeAt_get _ _ _ _ h]
  split
  · rw [if_neg (by omega), if_pos (by omega)]; congr 1; omega
  · rw [List.getElem?_eq_none (by omega)]

theorem read_other (f bs : List Nat) (pos q n : Nat) (h : pos + bs.length ≤ f.length) (hd : q + n ≤ pos ∨ pos + bs.length ≤ q) :
    readAt (writeAt f pos bs) q n = readAt f q n := by
  apply List.ext_getElem?
  intro i
  rw [readAt_get, readAt_get, writeAt_get _ _ _ _ h]
  split
  · by_cases hq : q + i < pos
    · rw [if_pos hq]
    · rw [if_neg hq, if_neg (by omega)]
  · rfl

namespace Spec

/-- The bytes of one cylinder in the image. -/
def cylSize (t : DiskType) : Nat := trackSize t * t.heads

/-- Where a cylinder is in the image file. -/
def cylAt (t : DiskType) (c : Nat) : Nat := hdrSize + c * cylSize t

/-- What is on a cylinder of the mounted pack: the arm's cylinder is in the drive's buffer, the others in the file. -/
def cylinder (s : S) (c : Nat) : List Nat :=
  if c = s.cyl then s.cbuf.getD [] else readAt s.file (cylAt s.ty c) (cylSize s.ty)

end Spec

/-- A pack of the drive's type is mounted and the buffer belongs to the arm's cylinder. -/
structure Mounted (s : S) : Prop where
  ty : s.ty ∈ diskTypes
  tsize : s.tsize = trackSize s.ty
  fpos : s.fpos = Spec.cylAt s.ty s.cyl
  cyl : s.cyl < s.ty.cyl
  file : Spec.cylAt s.ty s.ty.cyl ≤ s.file.length
  buf : ∃ b, s.cbuf = some b ∧ b.length = Spec.cylSize s.ty

/-- Nothing in the buffer can get lost: it is marked as changed, or the file holds the same bytes. -/
def Saved (s : S) : Prop := s.dirty = true ∨ s.cbuf = some (readAt s.file s.fpos (Spec.cylSize s.ty))

theorem cylAt_end (t : DiskType) (c : Nat) (h : c < t.cyl) : Spec.cylAt t c + Spec.cylSize t ≤ Spec.cylAt t t.cyl := by
  unfold Spec.cylAt
  have : (c + 1) * Spec.cylSize t ≤ t.cyl * Spec.cylSize t := Nat.mul_le_mul_right _ h
  rw [Nat.add_mul] at this
  omega

theorem cylAt_apart (t : DiskType) (a b : Nat) (h : a ≠ b) :
    Spec.cylAt t a + Spec.cylSize t ≤ Spec.cylAt t b ∨ Spec.cylAt t b + Spec.cylSize t ≤ Spec.cylAt t a := by
  unfold Spec.cylAt
  rcases Nat.lt_or_gt_of_ne h with h | h
  · have := Nat.mul_le_mul_right (Spec.cylSize t) h
    rw [Nat.succ_mul] at this; omega
  · have := Nat.mul_le_mul_right (Spec.cylSize t) h
    rw [Nat.succ_mul] at this; omega

/-- What the end of a seek does to a mounted pack, written out. -/
theorem seek_eq (s : S) (b : List Nat) (m : Mounted s) (hb : s.cbuf = some b) (hn : s.ncyl < s.ty.cyl) (hc : s.cyl ≠ s.ncyl) :
    ∃ f d, (f, d) = (if s.dirty then (writeAt s.file s.fpos b, false) else (s.file, s.dirty)) ∧
    ∃ t, seekDone s = .ok t ∧ t.ty = s.ty ∧ t.tsize = s.tsize ∧ t.file = f ∧ t.dirty = d ∧ t.cyl = s.ncyl ∧ t.ncyl = s.ncyl ∧
      t.fpos = Spec.cylAt s.ty s.ncyl ∧ t.cbuf = some (readAt f (Spec.cylAt s.ty s.ncyl) (Spec.cylSize s.ty)) := by
  have sn := sane _ m.ty
  obtain ⟨b', hb', hbl⟩ := m.buf
  rw [hb] at hb'; cases hb'
  have hsz : u32 (s.tsize * s.ty.heads) = Spec.cylSize s.ty := by
    rw [m.tsize]; unfold u32 Spec.cylSize
    exact Nat.mod_eq_of_lt (by have := sn.2.2.2.2.2.2.1; omega)
  have hle : Spec.cylSize s.ty * s.ncyl < 4294967296 - 512 := by
    have h1 : s.ncyl ≤ 255 := by have := sn.2.1; omega
    have h2 : Spec.cylSize s.ty * s.ncyl ≤ Spec.cylSize s.ty * 255 := Nat.mul_le_mul_left _ h1
    have h3 := sn.2.2.2.2.2.2.1
    have h4 : 400 ≤ Spec.cylSize s.ty := by
      unfold Spec.cylSize
      calc 400 ≤ trackSize s.ty := sn.1
        _ = trackSize s.ty * 1 := (Nat.mul_one _).symm
        _ ≤ _ := Nat.mul_le_mul_left _ sn.2.2.2.2.1
    unfold Spec.cylSize at *
    have h5 : Spec.cylSize s.ty * 256 < 4294967296 - 512 := by
      have : ∀ t ∈ diskTypes, trackSize t * t.heads * 256 < 4294967296 - 512 := by decide
      exact this _ m.ty
    unfold Spec.cylSize at h5
    omega
  have hpos : u32 (u32 (Spec.cylSize s.ty * s.ncyl) + hdrSize) = Spec.cylAt s.ty s.ncyl := by
    unfold u32 Spec.cylAt hdrSize
    rw [Nat.mod_eq_of_lt (a := Spec.cylSize s.ty * s.ncyl) (by omega), Nat.mod_eq_of_lt (by omega), Nat.mul_comm]; omega
  have hend := cylAt_end s.ty s.ncyl hn
  have hcend := cylAt_end s.ty s.cyl m.cyl
  have hfile := m.file
  unfold seekDone
  simp only [if_pos hc, hsz, hpos]
  cases hd : s.dirty with
  | true =>
    simp only [if_true, flush, hb, hbl, Nat.le_refl, bk]
    rw [List.take_of_length_le (by omega)]
    refine ⟨_, _, rfl, ?_⟩
    have hl : (readAt (writeAt s.file s.fpos b) (Spec.cylAt s.ty s.ncyl) (Spec.cylSize s.ty)).length = Spec.cylSize s.ty := by
      apply readAt_length
      rw [writeAt_length _ _ _ (by rw [m.fpos, hbl]; omega)]; omega
    simp only [load, hl, hbl, Nat.le_refl, if_true, bk]
    refine ⟨_, rfl, rfl, rfl, rfl, rfl, rfl, rfl, rfl, ?_⟩
    rw [List.drop_of_length_le (by omega), List.append_nil]
  | false =>
    have hl : (readAt s.file (Spec.cylAt s.ty s.ncyl) (Spec.cylSize s.ty)).length = Spec.cylSize s.ty :=
      readAt_length _ _ _ (by omega)
    simp only [Bool.false_eq_true, if_false, bk]
    refine ⟨_, _, rfl, ?_⟩
    simp only [load, hb, hl, hbl, Nat.le_refl, if_true, bk]
    refine ⟨_, rfl, rfl, rfl, rfl, rfl, rfl, rfl, rfl, ?_⟩
    rw [List.drop_of_length_le (by omega), List.append_nil]

/-- A seek to a cylinder the pack has ends on that cylinder and keeps every cylinder's bytes. -/
theorem seek_keeps (s : S) (m : Mounted s) (sv : Saved s) (hn : s.ncyl < s.ty.cyl) :
    ∃ t, seekDone s = .ok t ∧ Mounted t ∧ Saved t ∧ t.ty = s.ty ∧ t.cyl = s.ncyl ∧ t.ncyl = s.ncyl ∧
      ∀ c, c < s.ty.cyl → Spec.cylinder t c = Spec.cylinder s c := by
  by_cases hc : s.cyl = s.ncyl
  · refine ⟨_, if_neg (not_not_intro hc), ⟨m.ty, m.tsize, m.fpos, m.cyl, m.file, m.buf⟩, sv, rfl, hc, rfl,
      fun c _ => rfl⟩
  · obtain ⟨b, hb, hbl⟩ := m.buf
    obtain ⟨f, d, hfd, t, h, hty, hts, hf, hd, hcy, hncy, hfp, hcb⟩ := seek_eq s b m hb hn hc
    have hcend := cylAt_end s.ty s.cyl m.cyl
    have hend := cylAt_end s.ty s.ncyl hn
    have hfile := m.file
    have hw : s.fpos + b.length ≤ s.file.length := by rw [m.fpos, hbl]; omega
    have hfl : f.length = s.file.length := by
      split at hfd <;> cases hfd
      · exact writeAt_length _ _ _ hw
      · rfl
    have hfb : readAt f (Spec.cylAt s.ty s.cyl) (Spec.cylSize s.ty) = b := by
      split at hfd <;> cases hfd
      · rw [← m.fpos, ← hbl]; exact read_back _ _ _ hw
      · next hdd =>
        rcases sv with sv | sv
        · exact absurd sv hdd
        · rw [hb] at sv
          rw [← m.fpos]; exact (Option.some.inj sv).symm
    have hfo : ∀ c, c ≠ s.cyl → readAt f (Spec.cylAt s.ty c) (Spec.cylSize s.ty) = readAt s.file (Spec.cylAt s.ty c) (Spec.cylSize s.ty) := by
      intro c hne
      split at hfd <;> cases hfd
      · apply read_other _ _ _ _ _ hw
        rw [m.fpos, hbl]
        exact cylAt_apart _ _ _ hne
      · rfl
    refine ⟨t, h, ⟨hty ▸ m.ty, by rw [hts, hty]; exact m.tsize, by rw [hfp, hty, hcy], by rw [hcy, hty]; exact hn,
      by rw [hty, hf, hfl]; exact hfile, _, hcb, ?_⟩, Or.inr ?_, hty, hcy, hncy, ?_⟩
    · rw [hty]; exact readAt_length _ _ _ (by omega)
    · rw [hcb, hf, hfp, hty]
    · intro c hcc
      unfold Spec.cylinder
      rw [hcy, hcb, hf, hty, hb]
      by_cases h1 : c = s.ncyl
      · rw [if_pos h1, if_neg (by rw [h1]; exact fun h => hc h.symm), ← h1]
        exact hfo c (by rw [h1]; exact fun h => hc h.symm)
      · rw [if_neg h1]
        by_cases h2 : c = s.cyl
        · rw [if_pos h2, h2]; exact hfb
        · rw [if_neg h2]; exact hfo c h2

/-! ### Histories -/

/-- What the control unit and the event queue do to a drive. -/
inductive Op where
  /-- `dasd_settags` -/
  | tags (ft fc : Nat)
  /-- `dasd_read_byte` -/
  | read (io : Io)
  /-- `dasd_write_byte` -/
  | write (io : Io)
  /-- `dasd_step` -/
  | turn
  /-- the seek event -/
  | seek
deriving Repr, DecidableEq

/-- The drive after an operation. -/
def act (s : S) : Op → Res S
  | .tags ft fc => setTags s ft fc
  | .read io => (readByte s io).bind fun x => .ok x.1
  | .write io => (writeByte s io).bind fun x => .ok x.1
  | .turn => .ok (stepDisk s).1
  | .seek => seekDone s

/-- A history in which every seek goes to a cylinder of the pack and every byte is written into a buffer
marked as changed, with no byte written while the arm is at cylinder `c`. -/
inductive Hist (c : Nat) : S → S → Prop
  | refl (s : S) : Hist c s s
  | step {s t u : S} (op : Op) (h : Hist c s t) (e : act t op = .ok u) (hs : op = .seek → t.ncyl < t.ty.cyl)
      (hw : ∀ io, op = .write io → t.dirty = true ∧ t.cyl ≠ c) : Hist c s u

theorem keeps_mounted {s t : S} (k : fr t = fr s) (m : Mounted s) : Mounted t := by
  simp only [fr, Prod.mk.injEq] at k
  obtain ⟨a, b, c, d, e, f⟩ := k
  exact ⟨a ▸ m.ty, by rw [b, a]; exact m.tsize, by rw [d, a, e]; exact m.fpos, by rw [e, a]; exact m.cyl,
    by rw [a, c]; exact m.file, by rw [f, a]; exact m.buf⟩

theorem keeps_cylinder {s t : S} (k : fr t = fr s) (c : Nat) : Spec.cylinder t c = Spec.cylinder s c := by
  simp only [fr, Prod.mk.injEq] at k
  obtain ⟨a, b, c, d, e, f⟩ := k
  unfold Spec.cylinder; rw [a, c, e, f]

theorem keeps_saved {s t : S} (k : fr t = fr s) (d : t.dirty = true ∨ t.dirty = s.dirty) (m : Saved s) : Saved t := by
  simp only [fr, Prod.mk.injEq] at k
  obtain ⟨a, _, c, p, _, f⟩ := k
  rcases d with d | d
  · exact Or.inl d
  · rcases m with m | m
    · exact Or.inl (d.trans m)
    · refine Or.inr ?_; rw [f, c, p, a]; exact m

theorem act_keeps {s u : S} (op : Op) (c : Nat) (m : Mounted s) (sv : Saved s) (e : act s op = .ok u)
    (hs : op = .seek → s.ncyl < s.ty.cyl) (hw : ∀ io, op = .write io → s.dirty = true) :
    Mounted u ∧ Saved u ∧ u.ty = s.ty ∧
      (c < s.ty.cyl → (∀ io, op = .write io → s.cyl ≠ c) → Spec.cylinder u c = Spec.cylinder s c) := by
  cases op with
  | tags ft fc =>
    have k := setTags_fr e
    exact ⟨keeps_mounted k.1 m, keeps_saved k.1 (Or.inr (congrArg Prod.fst k.2)) sv, congrArg Prod.fst k.1, fun _ _ => keeps_cylinder k.1 c⟩
  | read io =>
    obtain ⟨⟨t, r, io'⟩, h1, h2⟩ := bind_inv e
    cases h2
    have k := readByte_fr h1
    exact ⟨keeps_mounted k.1 m, keeps_saved k.1 (k.2.imp id (·.2)) sv, congrArg Prod.fst k.1, fun _ _ => keeps_cylinder k.1 c⟩
  | write io =>
    obtain ⟨⟨t, r, io'⟩, h1, h2⟩ := bind_inv e
    cases h2
    have k := writeByte_wk h1
    obtain ⟨b, hb, hbl⟩ := m.buf
    have hb2 := k.buf
    rw [hb] at hb2
    cases hu : t.cbuf with
    | none => rw [hu] at hb2; cases hb2
    | some b' =>
      rw [hu] at hb2
      have hl : b'.length = b.length := Option.some.inj hb2
      refine ⟨⟨k.ty ▸ m.ty, by rw [k.tsize, k.ty]; exact m.tsize, by rw [k.fpos, k.ty, k.cyl]; exact m.fpos,
        by rw [k.cyl, k.ty]; exact m.cyl, by rw [k.ty, k.file]; exact m.file, b', hu, by rw [hl, k.ty]; exact hbl⟩,
        Or.inl (k.dirty.trans (hw io rfl)), k.ty, ?_⟩
      intro _ hne
      have hne := hne io rfl
      unfold Spec.cylinder
      rw [k.cyl, k.ty, k.file, if_neg (Ne.symm hne), if_neg (Ne.symm hne)]
  | turn =>
    cases e
    have k := stepDisk_fr s
    exact ⟨keeps_mounted k.1 m, keeps_saved k.1 (Or.inr k.2) sv, congrArg Prod.fst k.1, fun _ _ => keeps_cylinder k.1 c⟩
  | seek =>
    obtain ⟨t, h, mt, st, ht, -, -, hc⟩ := seek_keeps s m sv (hs rfl)
    have : t = u := Res.ok.inj (h.symm.trans e)
    subst this
    exact ⟨mt, st, ht, fun hlt _ => hc c hlt⟩

/-- **C41** (Seeking preserves recorded data), partial.  Whatever the control unit does with a mounted pack - any tags, any
number of byte times read or passed over, seeks to any cylinders the pack has, any bytes written on other cylinders - the
bytes of cylinder `c` stay as they are.  Missing: bytes written into a buffer not marked as changed, see
`C41_violated_unmarked`, and seeks past the last cylinder, see `C41_violated_past_end`. -/
theorem C41_seek_partial (s u : S) (c : Nat) (m : Mounted s) (sv : Saved s) (hc : c < s.ty.cyl) (h : Hist c s u) :
    Spec.cylinder u c = Spec.cylinder s c := by
  have key : Mounted u ∧ Saved u ∧ u.ty = s.ty ∧ Spec.cylinder u c = Spec.cylinder s c := by
    induction h with
    | refl => exact ⟨m, sv, rfl, rfl⟩
    | step op h e hs hw ih =>
      obtain ⟨a, b, ty, d⟩ := ih
      obtain ⟨p, q, r, w⟩ := act_keeps op c a b e hs (fun io h => (hw io h).1)
      exact ⟨p, q, r.trans ty, (w (ty ▸ hc) (fun io h => (hw io h).2)).trans d⟩
  exact key.2.2.2

/-- A drive of any type holding a freshly formatted pack is such a drive. -/
theorem mounted_fresh (s : S) (label r : List Nat) (n : List Nat) (ht : s.ty ∈ diskTypes) (hc : s.ncyl = 0) :
    Mounted { s with
      opened := true, file := header s.ty ++ freshImage true label s.ty ++ r,
      tsize := trackSize s.ty, cbuf := some (freshCyl true label (trackSize s.ty) s.ty.heads 0),
      fpos := hdrSize, online := true, ready := true, cyl := 0, tstart := 0, label := n } := by
  have sn := sane _ ht
  refine ⟨ht, rfl, ?_, sn.2.2.2.1, ?_, _, rfl, ?_⟩
  · simp [Spec.cylAt]
  · simp only [Spec.cylAt, List.length_append, header_length, freshImage, Spec.cylSize]
    rw [flatMap_length_const _ (s.ty.heads * trackSize s.ty) _ (fun x _ => freshCyl_length _ _ _ _ _ sn.1)]
    simp only [List.length_range]
    rw [Nat.mul_comm s.ty.heads]; omega
  · rw [freshCyl_length _ _ _ _ _ sn.1, Nat.mul_comm]; rfl

/-- The bytes given to the drive one after the other. -/
def writes (s : S) : List Io → Res S
  | [] => .ok s
  | io :: ios => (writeByte s io).bind fun x => writes x.1 ios

theorem writes_wk : ∀ {ios : List Io} {s t : S}, writes s ios = .ok t → WKeeps s t := by
  intro ios
  induction ios with
  | nil => intro s t h; cases h; exact wk rfl
  | cons io ios ih =>
    intro s t h
    obtain ⟨⟨u, r, io'⟩, h1, h2⟩ := bind_inv h
    exact (writeByte_wk h1).trans (ih h2)

theorem mounted_wk {s t : S} (k : WKeeps s t) (m : Mounted s) : Mounted t := by
  obtain ⟨b, hb, hbl⟩ := m.buf
  have hb2 := k.buf
  rw [hb] at hb2
  cases hu : t.cbuf with
  | none => rw [hu] at hb2; cases hb2
  | some b' =>
    rw [hu] at hb2
    have hl : b'.length = b.length := Option.some.inj hb2
    exact ⟨k.ty ▸ m.ty, by rw [k.tsize, k.ty]; exact m.tsize, by rw [k.fpos, k.ty, k.cyl]; exact m.fpos,
        by rw [k.cyl, k.ty]; exact m.cyl, by rw [k.ty, k.file]; exact m.file, b', hu, by rw [hl, k.ty]; exact hbl⟩

theorem setCyl_eq (s : S) (c : Nat) : setTags s 0x41 c = .ok { s with ncyl := c } := by
  unfold setTags
  rw [if_neg (by decide), if_neg (by decide)]
  rfl

/-- **C41**, violated.  `dasd_write_byte` never marks the buffer as changed.  Whatever is written on a cylinder whose buffer
is not yet marked, after a seek to any other cylinder and back every byte is as before the writing. -/
theorem C41_violated_unmarked (s t : S) (ios : List Io) (c : Nat) (m : Mounted s) (hd : s.dirty = false) (sv : Saved s)
    (h : writes s ios = .ok t) (hc : c < s.ty.cyl) (hne : c ≠ s.cyl) :
    ∃ a b d e, setTags t 0x41 c = .ok a ∧ seekDone a = .ok b ∧ setTags b 0x41 s.cyl = .ok d ∧ seekDone d = .ok e ∧
      e.cyl = s.cyl ∧ e.file = s.file ∧ Spec.cylinder e s.cyl = Spec.cylinder s s.cyl := by
  have k := writes_wk h
  have mt := mounted_wk k m
  obtain ⟨bt, hbt, -⟩ := mt.buf
  have ma : Mounted { t with ncyl := c } := ⟨mt.1, mt.2, mt.3, mt.4, mt.5, mt.6⟩
  obtain ⟨f, d, hfd, b, hb, bty, bts, bf, bd, bcy, bncy, bfp, bcb⟩ := seek_eq { t with ncyl := c } bt ma hbt
    (by show c < t.ty.cyl; rw [k.ty]; exact hc) (by show t.cyl ≠ c; rw [k.cyl]; exact Ne.symm hne)
  have htd : t.dirty = false := k.dirty.trans hd
  simp only [htd, Bool.false_eq_true, if_false, Prod.mk.injEq] at hfd
  obtain ⟨rfl, rfl⟩ := hfd
  simp only [k.file] at bf bcb
  have hct := cylAt_end s.ty c hc
  have hf := m.file
  have mb : Mounted { b with ncyl := s.cyl } := by
    refine ⟨bty ▸ mt.ty, by show b.tsize = trackSize b.ty; rw [bts, bty]; exact mt.tsize,
      by show b.fpos = Spec.cylAt b.ty b.cyl; rw [bfp, bty, bcy], by show b.cyl < b.ty.cyl; rw [bcy, bty]; show c < t.ty.cyl; rw [k.ty]; exact hc,
      by show Spec.cylAt b.ty b.ty.cyl ≤ b.file.length; rw [bty, bf]; show Spec.cylAt t.ty t.ty.cyl ≤ _; rw [k.ty]; exact hf, _, bcb, ?_⟩
    show List.length _ = Spec.cylSize b.ty
    rw [bty]
    show (readAt s.file (Spec.cylAt t.ty c) (Spec.cylSize t.ty)).length = Spec.cylSize t.ty
    rw [k.ty]; exact readAt_length _ _ _ (by omega)
  have hbty : b.ty = s.ty := bty.trans k.ty
  obtain ⟨f, d, hfd, e, he, ety, ets, ef, ed, ecy, encyl, efp, ecb⟩ := seek_eq { b with ncyl := s.cyl } _ mb bcb
    (by show s.cyl < b.ty.cyl; rw [hbty]; exact m.cyl) (by show b.cyl ≠ s.cyl; rw [bcy]; exact hne)
  simp only [bd, Bool.false_eq_true, if_false, Prod.mk.injEq] at hfd
  obtain ⟨rfl, rfl⟩ := hfd
  refine ⟨_, b, _, e, setCyl_eq t c, hb, setCyl_eq b s.cyl, he, ecy, ef.trans bf, ?_⟩
  unfold Spec.cylinder
  rw [ecy]
  simp only [if_true]
  rw [ecb]
  show readAt b.file (Spec.cylAt b.ty s.cyl) (Spec.cylSize b.ty) = s.cbuf.getD []
  rcases sv with sv | sv
  · rw [hd] at sv; cases sv
  · rw [sv, bf, hbty, m.fpos]; rfl

/-- **C41**, violated past the last cylinder.  A seek to a cylinder the image file does not reach leaves the drive showing the
bytes of the cylinder it came from. -/
theorem C41_violated_past_end (s : S) (m : Mounted s) (hl : s.file.length = Spec.cylAt s.ty s.ty.cyl) (hd : s.dirty = false)
    (hn : s.ty.cyl ≤ s.ncyl) (hb : s.ncyl < 256) :
    ∃ t, seekDone s = .ok t ∧ t.cyl = s.ncyl ∧ Spec.cylinder t s.ncyl = Spec.cylinder s s.cyl := by
  have sn := sane _ m.ty
  obtain ⟨b, hbb, hbl⟩ := m.buf
  have hc : s.cyl ≠ s.ncyl := by have := m.cyl; omega
  have hsz : u32 (s.tsize * s.ty.heads) = Spec.cylSize s.ty := by
    rw [m.tsize]; unfold u32 Spec.cylSize
    exact Nat.mod_eq_of_lt (by have := sn.2.2.2.2.2.2.1; omega)
  have hle : Spec.cylSize s.ty * s.ncyl < 4294967296 - 512 := by
    have h2 : Spec.cylSize s.ty * s.ncyl ≤ Spec.cylSize s.ty * 256 := Nat.mul_le_mul_left _ (by omega)
    have : ∀ t ∈ diskTypes, trackSize t * t.heads * 256 < 4294967296 - 512 := by decide
    have := this _ m.ty
    unfold Spec.cylSize at *
    omega
  have hpos : u32 (u32 (Spec.cylSize s.ty * s.ncyl) + hdrSize) = Spec.cylAt s.ty s.ncyl := by
    unfold u32 Spec.cylAt hdrSize
    rw [Nat.mod_eq_of_lt (a := Spec.cylSize s.ty * s.ncyl) (by omega), Nat.mod_eq_of_lt (by omega), Nat.mul_comm]; omega
  have hge : s.file.length ≤ Spec.cylAt s.ty s.ncyl := by
    rw [hl]; unfold Spec.cylAt
    have := Nat.mul_le_mul_right (Spec.cylSize s.ty) hn
    omega
  have hr : readAt s.file (Spec.cylAt s.ty s.ncyl) (Spec.cylSize s.ty) = [] := by
    unfold readAt; rw [List.drop_of_length_le hge, List.take_nil]
  unfold seekDone
  simp only [if_pos hc, hsz, hpos, hd, Bool.false_eq_true, if_false, bk, load, hbb, hr, List.length_nil, Nat.zero_le, if_true]
  refine ⟨_, rfl, rfl, ?_⟩
  unfold Spec.cylinder
  simp [hbb]

/-! ### Taking the pack off -/

/-- **C89** (Detaching saves the pack), partial as C41: when nothing was written into an unmarked buffer, the image file left by
a detach holds every cylinder's bytes where the format puts them. -/
theorem C89_detach_partial (s : S) (m : Mounted s) (sv : Saved s) :
    ∃ t, detach s = .ok t ∧ t.opened = false ∧ t.file.length = s.file.length ∧
      ∀ c, c < s.ty.cyl → readAt t.file (Spec.cylAt s.ty c) (Spec.cylSize s.ty) = Spec.cylinder s c := by
  have sn := sane _ m.ty
  obtain ⟨b, hb, hbl⟩ := m.buf
  have hsz : u32 (s.tsize * s.ty.heads) = Spec.cylSize s.ty := by
    rw [m.tsize]; unfold u32 Spec.cylSize
    exact Nat.mod_eq_of_lt (by have := sn.2.2.2.2.2.2.1; omega)
  have hcend := cylAt_end s.ty s.cyl m.cyl
  have hfile := m.file
  have hw : s.fpos + b.length ≤ s.file.length := by rw [m.fpos, hbl]; omega
  unfold detach
  rw [hsz]
  cases hd : s.dirty with
  | true =>
    simp only [if_true, flush, hb, hbl, Nat.le_refl, bk]
    rw [List.take_of_length_le (by omega)]
    refine ⟨_, rfl, rfl, writeAt_length _ _ _ hw, ?_⟩
    intro c hc
    unfold Spec.cylinder
    show readAt (writeAt s.file s.fpos b) _ _ = _
    by_cases h2 : c = s.cyl
    · rw [if_pos h2, h2, hb, ← m.fpos, ← hbl]; exact read_back _ _ _ hw
    · rw [if_neg h2]
      apply read_other _ _ _ _ _ hw
      rw [m.fpos, hbl]
      exact cylAt_apart _ _ _ h2
  | false =>
    simp only [Bool.false_eq_true, if_false, bk]
    refine ⟨_, rfl, rfl, rfl, ?_⟩
    intro c hc
    unfold Spec.cylinder
    rcases sv with sv | sv
    · rw [hd] at sv; cases sv
    · split
      · next h => rw [sv, h, m.fpos]; rfl
      · rfl

/-- **C89**, violated: bytes written into a buffer that is not marked are not in the file after a detach. -/
theorem C89_violated_unmarked (s t : S) (ios : List Io) (hd : s.dirty = false) (h : writes s ios = .ok t) :
    ∃ u, detach t = .ok u ∧ u.file = s.file := by
  have k := writes_wk h
  unfold detach
  rw [k.dirty, hd]
  exact ⟨_, rfl, k.file⟩

/-! ### Looking does not change the pack -/

theorem writeAt_same (f : List Nat) (pos n : Nat) (h : pos + n ≤ f.length) : writeAt f pos (readAt f pos n) = f := by
  have hl := readAt_length f pos n h
  apply List.ext_getElem?
  intro i
  rw [writeAt_get _ _ _ _ (by omega), hl, readAt_get]
  split
  · rfl
  · split
    · rw [if_pos (by omega)]; congr 1; omega
    · rfl

/-- A history without writing, every seek to a cylinder of the pack. -/
inductive Look : S → S → Prop
  | refl (s : S) : Look s s
  | step {s t u : S} (op : Op) (h : Look s t) (e : act t op = .ok u) (hs : op = .seek → t.ncyl < t.ty.cyl)
      (hw : ∀ io, op ≠ .write io) : Look s u

/-- **C90** (Reading never alters the image).  However often the control unit reads, seeks to cylinders of the pack, selects
and lets the disk turn, and although reading marks the buffer as changed so that it is written back, the image file keeps
every byte, and so it does when the pack is then taken off. -/
theorem C90_reading_partial (s u : S) (m : Mounted s) (sv : s.cbuf = some (readAt s.file s.fpos (Spec.cylSize s.ty))) (h : Look s u) :
    u.file = s.file ∧ ∃ t, detach u = .ok t ∧ t.file = s.file := by
  have key : Mounted u ∧ u.cbuf = some (readAt u.file u.fpos (Spec.cylSize u.ty)) ∧ u.file = s.file := by
    induction h with
    | refl => exact ⟨m, sv, rfl⟩
    | @step t u op h e hs hw ih =>
      obtain ⟨a, b, f⟩ := ih
      have same : fr u = fr t → Mounted u ∧ u.cbuf = some (readAt u.file u.fpos (Spec.cylSize u.ty)) ∧ u.file = s.file := by
        intro k
        refine ⟨keeps_mounted k a, ?_⟩
        simp only [fr, Prod.mk.injEq] at k
        obtain ⟨p1, _, p3, p4, _, p6⟩ := k
        rw [p6, p3, p4, p1]; exact ⟨b, f⟩
      cases op with
      | tags ft fc => exact same (setTags_fr e).1
      | read io =>
        obtain ⟨⟨t, r, io'⟩, h1, h2⟩ := bind_inv e
        cases h2
        exact same (readByte_fr h1).1
      | write io => exact absurd rfl (hw io)
      | turn => cases e; exact same (stepDisk_fr t).1
      | seek =>
        have hn := hs rfl
        obtain ⟨v, hv, mv, -⟩ := seek_keeps t a (Or.inr b) hn
        have : v = u := Res.ok.inj (hv.symm.trans e)
        subst this
        refine ⟨mv, ?_⟩
        by_cases hc : t.cyl = t.ncyl
        · have : seekDone t = .ok _ := if_neg (not_not_intro hc)
          have := Res.ok.inj (this.symm.trans e)
          subst this
          exact ⟨b, f⟩
        · obtain ⟨g, d, hfd, w, hw', wty, -, wf, -, wcy, -, wfp, wcb⟩ := seek_eq t _ a b hn hc
          have : w = v := Res.ok.inj (hw'.symm.trans e)
          subst this
          have hcend := cylAt_end t.ty t.cyl a.cyl
          have hg : g = t.file := by
            split at hfd <;> cases hfd
            · exact writeAt_same _ _ _ (by rw [a.fpos]; have := a.file; omega)
            · rfl
          rw [wcb, wf, wfp, wty, hg]
          exact ⟨rfl, f⟩
  obtain ⟨a, b, f⟩ := key
  refine ⟨f, ?_⟩
  have sn := sane _ a.ty
  have hsz : u32 (u.tsize * u.ty.heads) = Spec.cylSize u.ty := by
    rw [a.tsize]; unfold u32 Spec.cylSize
    exact Nat.mod_eq_of_lt (by have := sn.2.2.2.2.2.2.1; omega)
  have hcend := cylAt_end u.ty u.cyl a.cyl
  have hfp : u.fpos + Spec.cylSize u.ty ≤ u.file.length := by rw [a.fpos]; have := a.file; omega
  unfold detach
  rw [hsz]
  cases hd : u.dirty with
  | true =>
    simp only [if_true, flush, b, readAt_length _ _ _ hfp, Nat.le_refl, bk]
    refine ⟨_, rfl, ?_⟩
    rw [List.take_of_length_le (by rw [readAt_length _ _ _ hfp]; exact Nat.le_refl _)]
    exact (writeAt_same _ _ _ hfp).trans f
  | false => exact ⟨_, rfl, f⟩

end Verif.Dasd
