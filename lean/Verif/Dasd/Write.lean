import Verif.Dasd.Track
/-!
# Writing the data of a record (C92)
-/
namespace Verif.Dasd
open Verif.Card (Res look)

/-- A byte held out to the drive until it takes it: `rate + 1` calls. -/
def held (rate : Nat) (io : Io) : List Io := List.replicate (rate + 1) io

theorem writes_append : ∀ (a b : List Io) (s : S), writes s (a ++ b) = (writes s a).bind fun t => writes t b := by
  intro a
  induction a with
  | nil => intro b s; rfl
  | cons io a ih =>
    intro b s
    show (writeByte s io).bind _ = ((writeByte s io).bind _).bind _
    cases writeByte s io with
    | ok x => simp only [Res.bind]; exact ih b x.1
    | oob => rfl
    | fuel => rfl

theorem writes_clock (io : Io) : ∀ (m d : Nat) (s : S), d + m = s.ty.rate →
    writes { s with step := d } (List.replicate (m + 1) io) = (wrTick (wrIx s) (if s.tpos ≥ s.tsize then { io with ix := true } else io)).bind
      fun x => .ok x.1 := by
  intro m
  induction m with
  | zero =>
    intro d s hd
    show (writeByte { s with step := d } io).bind _ = _
    unfold writeByte
    rw [if_neg (show ¬ d < s.ty.rate by omega)]
    rfl
  | succ m ih =>
    intro d s hd
    rw [List.replicate_succ]
    show (writeByte { s with step := d } io).bind _ = _
    unfold writeByte
    rw [if_pos (show d < s.ty.rate by omega), bk]
    exact ih (d + 1) s (by omega)

/-- A drive amid a write. -/
def ww (s : S) (p : Pos) (c t r pos k0 k1 : Nat) (b : List Nat) : S :=
  { s with state := p, count := c, tpos := t, rpos := r, cpos := pos, ck0 := k0, ck1 := k1, cbuf := some b, step := 0 }

section
variable (s : S) (p : Pos) (c t r pos k0 k1 : Nat) (b : List Nat)
theorem ww_tpos : (ww s p c t r pos k0 k1 b).tpos = t := rfl
theorem ww_tsize : (ww s p c t r pos k0 k1 b).tsize = s.tsize := rfl
theorem ww_count : (ww s p c t r pos k0 k1 b).count = c := rfl
theorem ww_ty : (ww s p c t r pos k0 k1 b).ty = s.ty := rfl
theorem ww_dlen : (ww s p c t r pos k0 k1 b).dlen = s.dlen := rfl
end

/-- One byte taken in the middle of a track. -/
theorem take_one (s u : S) (p : Pos) (c t r pos k0 k1 : Nat) (b : List Nat) (io : Io) (d' : Nat) (hb : s.ty.bpt < 60000)
    (hc : c < 65535) (ht : t < s.tsize) (hp : pos < s.ty.bpt)
    (h : wrSwitch (ww s p (c + 1) t r (pos + 1) k0 k1 b) c (t + s.tstart) io.data io.am = .ok (u, d'))
    (hu : u.cpos ≤ u.ty.bpt) :
    writes (ww s p c t r pos k0 k1 b) (held s.ty.rate io) = .ok u := by
  have e := writes_clock io s.ty.rate 0 (ww s p c t r pos k0 k1 b) (by show 0 + s.ty.rate = s.ty.rate; omega)
  have e0 : { ww s p c t r pos k0 k1 b with step := 0 } = ww s p c t r pos k0 k1 b := rfl
  rw [e0] at e
  show writes _ (List.replicate (s.ty.rate + 1) io) = _
  rw [e, ww_tpos, ww_tsize, if_neg (show ¬ t ≥ s.tsize by omega)]
  have e1 : wrIx (ww s p c t r pos k0 k1 b) = ww s p c t r pos k0 k1 b := by
    unfold wrIx
    rw [ww_tpos, ww_tsize, if_neg (show ¬ t ≥ s.tsize by omega)]
    rfl
  rw [e1]
  unfold wrTick
  have e2 : { ww s p c t r pos k0 k1 b with
      count := u16 ((ww s p c t r pos k0 k1 b).count + 1), cpos := u16 ((ww s p c t r pos k0 k1 b).cpos + 1) } =
      ww s p (c + 1) t r (pos + 1) k0 k1 b := by
    have f1 : u16 (pos + 1) = pos + 1 := Nat.mod_eq_of_lt (by omega)
    have f2 : u16 (c + 1) = c + 1 := Nat.mod_eq_of_lt (by omega)
    show { ww s p c t r pos k0 k1 b with count := u16 (c + 1), cpos := u16 (pos + 1) } = _
    rw [f1, f2]; rfl
  rw [e2]
  show ((wrSwitch _ c (t + s.tstart) io.data io.am).bind _).bind _ = _
  rw [h, bk, bk]
  show Res.ok (wrOut u _).1 = _
  unfold wrOut
  rw [if_neg (show ¬ u.cpos ≥ u.ty.bpt + 1 by omega)]

/-- The bytes the control unit writes: a gap, the sync byte, the data, two check bytes. -/
def Spec.syncByte (t : DiskType) : Nat := if t.dev == 0x14 then 0x9 else 0xe

theorem gap_bytes (s : S) (hb : s.ty.bpt < 60000) (hg : s.ty.g2 < 60000) (t r k0 k1 : Nat) (b : List Nat) (ht : t < s.tsize) :
    ∀ (gap : List Io) (c pos : Nat), (∀ io ∈ gap, io.data ≠ Spec.syncByte s.ty) → c + gap.length < s.ty.g2 →
      pos + gap.length ≤ s.ty.bpt →
      ∃ c', c' ≤ c + gap.length ∧ writes (ww s .gap3 c t r pos k0 k1 b) (gap.flatMap (held s.ty.rate)) =
        .ok (ww s .gap3 c' t r (pos + gap.length) k0 k1 b) := by
  intro gap
  induction gap with
  | nil => intro c pos _ _ _; exact ⟨c, Nat.le_refl _, rfl⟩
  | cons io gap ih =>
    intro c pos hs hc hp
    simp only [List.length_cons] at hc hp ⊢
    have hn := hs io (List.mem_cons_self ..)
    obtain ⟨c1, h1, hc1⟩ : ∃ c1, wrSwitch (ww s .gap3 (c + 1) t r (pos + 1) k0 k1 b) c (t + s.tstart) io.data io.am =
        .ok (ww s .gap3 c1 t r (pos + 1) k0 k1 b, io.data) ∧ c1 ≤ c + 1 := by
      have e : gapByte (ww s .gap3 (c + 1) t r (pos + 1) k0 k1 b) 0xcc 65535 io.data =
          ww s .gap3 (if io.data = 0xcc then 0 else if io.data = 0xff then u16 (c + 1 + 65535) else c + 1) t r (pos + 1) k0 k1 b := rfl
      generalize hk : (if io.data = 0xcc then 0 else if io.data = 0xff then u16 (c + 1 + 65535) else c + 1) = k at e
      have hk1 : k ≤ c + 1 := by
        rw [← hk]
        split
        · omega
        · split
          · show (c + 1 + 65535) % 65536 ≤ c + 1
            omega
          · omega
      refine ⟨k, ?_, hk1⟩
      show (wrGap3 _ _).bind _ = _
      unfold wrGap3
      rw [e, ww_count, ww_ty, if_neg (show ¬ k ≥ s.ty.g2 by omega), bk, bk]
      exact congrArg (fun z => Res.ok (z, io.data)) (if_neg (show ¬ io.data = Spec.syncByte s.ty from hn))
    have h2 := take_one s _ .gap3 c t r pos k0 k1 b io _ hb (by omega) ht (by omega) h1
      (by show pos + 1 ≤ s.ty.bpt; omega)
    obtain ⟨c', hc', h3⟩ := ih c1 (pos + 1) (fun x hx => hs x (List.mem_cons_of_mem _ hx)) (by omega) (by omega)
    refine ⟨c', by omega, ?_⟩
    rw [List.flatMap_cons, writes_append, h2, bk, h3]
    rw [show pos + (gap.length + 1) = pos + 1 + gap.length by omega]

theorem set_mid (a o p : List Nat) (x v : Nat) : (a ++ x :: o ++ p).set a.length v = a ++ v :: o ++ p := by
  simp

theorem data_bytes (s : S) (hb : s.ty.bpt < 60000) (hd : s.dlen < 65530) (r : Nat) (post : List Nat) :
    ∀ (bs : List Io) (pre old : List Nat) (c t pos k0 k1 : Nat), old.length = bs.length → c + bs.length = s.dlen →
      pre.length = t + s.tstart → t + bs.length < s.tsize → s.tsize ≤ 65536 → pos + bs.length ≤ s.ty.bpt →
      ∃ a b, writes (ww s .data c t r pos k0 k1 (pre ++ old ++ post)) (bs.flatMap (held s.ty.rate)) =
        .ok (ww s .data s.dlen (t + bs.length) r (pos + bs.length) a b (pre ++ bs.map Io.data ++ post)) := by
  intro bs
  induction bs with
  | nil =>
    intro pre old c t pos k0 k1 ho hc hpre ht hts hp
    have : old = [] := List.length_eq_zero_iff.1 ho
    subst this
    simp only [List.length_nil, Nat.add_zero] at hc ⊢
    subst hc
    exact ⟨k0, k1, rfl⟩
  | cons io bs ih =>
    intro pre old c t pos k0 k1 ho hc hpre ht hts hp
    obtain ⟨o, old, rfl⟩ : ∃ o old', old = o :: old' := by
      cases old with
      | nil => simp at ho
      | cons o old => exact ⟨o, old, rfl⟩
    simp only [List.length_cons] at ho hc ht hp ⊢
    obtain ⟨a1, b1, h1⟩ : ∃ a1 b1, wrSwitch (ww s .data (c + 1) t r (pos + 1) k0 k1 (pre ++ o :: old ++ post)) c (t + s.tstart) io.data io.am =
        .ok (ww s .data (c + 1) (t + 1) r (pos + 1) a1 b1 (pre ++ io.data :: old ++ post), io.data) := by
      have e1 : u16 (t + 1) = t + 1 := Nat.mod_eq_of_lt (by omega)
      have e2 : setB { ww s .data (c + 1) t r (pos + 1) k0 k1 (pre ++ o :: old ++ post) with tpos := u16 (t + 1) } (t + s.tstart) io.data =
          .ok (ww s .data (c + 1) (t + 1) r (pos + 1) k0 k1 (pre ++ io.data :: old ++ post)) := by
        rw [e1, ← hpre]
        unfold setB
        show (if pre.length < (pre ++ o :: old ++ post).length then _ else _) = _
        rw [if_pos (by simp only [List.length_append, List.length_cons]; omega), set_mid]
        rfl
      show ∃ a1 b1, (wrData _ _ _).bind _ = _
      unfold wrData
      rw [ww_count, ww_dlen, if_pos (show c + 1 ≤ s.dlen by omega)]
      show ∃ a1 b1, ((setB { ww s .data (c + 1) t r (pos + 1) k0 k1 (pre ++ o :: old ++ post) with tpos := u16 (t + 1) } (t + s.tstart) io.data).bind _).bind _ = _
      rw [e2, bk, bk]
      unfold ckx
      split
      · exact ⟨_, _, rfl⟩
      · exact ⟨_, _, rfl⟩
    have h2 := take_one s _ .data c t r pos k0 k1 _ io _ hb (by omega) (by omega) (by omega) h1
      (by show pos + 1 ≤ s.ty.bpt; omega)
    obtain ⟨a, b, h3⟩ := ih (pre ++ [io.data]) old (c + 1) (t + 1) (pos + 1) a1 b1 (by omega) (by omega)
      (by rw [List.length_append, hpre]; simp only [List.length_singleton]; omega) (by omega) hts (by omega)
    refine ⟨a, b, ?_⟩
    rw [List.flatMap_cons, writes_append, h2, bk]
    have e3 : pre ++ io.data :: old ++ post = pre ++ [io.data] ++ old ++ post := by simp
    rw [e3, h3]
    rw [show t + (bs.length + 1) = t + 1 + bs.length by omega, show pos + (bs.length + 1) = pos + 1 + bs.length by omega]
    simp

/-- **C92.**  A drive that stands in the gap ahead of a record's data and is given a gap shorter than the drive's own, the
sync byte, as many bytes as the record holds and two check bytes stores those bytes in place of the record's data and
changes no other byte of the cylinder; it then stands behind the record. -/
theorem C92_write_data (s : S) (ht : s.ty ∈ diskTypes) (hst : s.state = .gap3) (hstep : s.step = 0)
    (gap bs : List Io) (sy k1 k2 : Io) (pre old post : List Nat) (hbuf : s.cbuf = some (pre ++ old ++ post))
    (hpre : pre.length = s.tpos + s.tstart) (hold : old.length = s.dlen) (hbs : bs.length = s.dlen)
    (hgap : ∀ io ∈ gap, io.data ≠ Spec.syncByte s.ty) (hsy : sy.data = Spec.syncByte s.ty)
    (hc : s.count + gap.length + 1 < s.ty.g2) (htr : s.tpos + s.dlen < s.tsize) (hts : s.tsize ≤ 65536)
    (hrev : s.cpos + gap.length + 1 + s.dlen + 2 ≤ s.ty.bpt) :
    ∃ s', writes s ((gap ++ [sy] ++ bs ++ [k1, k2]).flatMap (held s.ty.rate)) = .ok s' ∧
      s'.cbuf = some (pre ++ bs.map Io.data ++ post) ∧
      s' = { s with
        state := .am, count := 0, tpos := s.tpos + s.dlen, rpos := s.tpos + s.dlen,
        cpos := s.cpos + (gap.length + 1 + s.dlen + 2), ck0 := 0, ck1 := s'.ck1, cbuf := s'.cbuf } := by
  have hS := std _ ht
  have hb := hS.bpt
  have hg2 := hS.g2
  have e0 : s = ww s .gap3 s.count s.tpos s.rpos s.cpos s.ck0 s.ck1 (pre ++ old ++ post) := by
    obtain ⟨⟩ := s
    simp only at hst hstep hbuf
    subst hst hstep hbuf
    rfl
  obtain ⟨c1, hc1, h1⟩ := gap_bytes s hb hg2 s.tpos s.rpos s.ck0 s.ck1 (pre ++ old ++ post) (by omega) gap s.count s.cpos hgap
    (by omega) (by omega)
  have hw2 : wrSwitch (ww s .gap3 (c1 + 1) s.tpos s.rpos (s.cpos + gap.length + 1) s.ck0 s.ck1 (pre ++ old ++ post)) c1
      (s.tpos + s.tstart) sy.data sy.am =
      .ok (ww s .data 0 s.tpos s.rpos (s.cpos + gap.length + 1) 255 255 (pre ++ old ++ post), sy.data) := by
    have e : gapByte (ww s .gap3 (c1 + 1) s.tpos s.rpos (s.cpos + gap.length + 1) s.ck0 s.ck1 (pre ++ old ++ post)) 0xcc 65535 sy.data =
        ww s .gap3 (c1 + 1) s.tpos s.rpos (s.cpos + gap.length + 1) s.ck0 s.ck1 (pre ++ old ++ post) := by
      have hv : sy.data ≠ 0xcc ∧ sy.data ≠ 0xff := by
        rw [hsy]; unfold Spec.syncByte; split <;> decide
      unfold gapByte
      rw [if_neg hv.1, if_neg hv.2]
    show (wrGap3 _ _).bind _ = _
    unfold wrGap3
    rw [e, ww_count, ww_ty, if_neg (show ¬ c1 + 1 ≥ s.ty.g2 by omega), bk, bk]
    exact congrArg (fun z => Res.ok (z, sy.data)) (if_pos (show sy.data = Spec.syncByte s.ty from hsy))
  have h2 := take_one s _ .gap3 c1 s.tpos s.rpos (s.cpos + gap.length) s.ck0 s.ck1 _ sy _ hb (by omega) (by omega) (by omega) hw2
    (by show s.cpos + gap.length + 1 ≤ s.ty.bpt; omega)
  obtain ⟨a, b, h3⟩ := data_bytes s hb (by omega) s.rpos post bs pre old 0 s.tpos (s.cpos + gap.length + 1) 255 255 (by omega) (by omega)
    hpre (by omega) hts (by omega)
  rw [hbs] at h3
  generalize hnew : pre ++ bs.map Io.data ++ post = new at h3 ⊢
  have h4 := take_one s (ww s .data (s.dlen + 1) (s.tpos + s.dlen) s.rpos (s.cpos + gap.length + 1 + s.dlen + 1) a b new) .data s.dlen
    (s.tpos + s.dlen) s.rpos (s.cpos + gap.length + 1 + s.dlen) a b new k1 k1.data hb (by omega) (by omega) (by omega)
    (by
      show (wrData _ _ _).bind _ = _
      unfold wrData
      rw [ww_count, ww_dlen, if_neg (show ¬ s.dlen + 1 ≤ s.dlen by omega), if_neg (show ¬ s.dlen + 1 = s.dlen + 2 by omega), bk])
    (by show s.cpos + gap.length + 1 + s.dlen + 1 ≤ s.ty.bpt; omega)
  have h5 := take_one s (ww s .am 0 (s.tpos + s.dlen) (s.tpos + s.dlen) (s.cpos + gap.length + 1 + s.dlen + 2) 0 b new) .data (s.dlen + 1)
    (s.tpos + s.dlen) s.rpos (s.cpos + gap.length + 1 + s.dlen + 1) a b new k2 k2.data hb (by omega) (by omega) (by omega)
    (by
      show (wrData _ _ _).bind _ = _
      unfold wrData
      rw [ww_count, ww_dlen, if_neg (show ¬ s.dlen + 1 + 1 ≤ s.dlen by omega), if_pos (show s.dlen + 1 + 1 = s.dlen + 2 by omega), bk]
      rfl)
    (by show s.cpos + gap.length + 1 + s.dlen + 2 ≤ s.ty.bpt; omega)
  refine ⟨ww s .am 0 (s.tpos + s.dlen) (s.tpos + s.dlen) (s.cpos + gap.length + 1 + s.dlen + 2) 0 b new, ?_, rfl, ?_⟩
  · simp only [List.flatMap_append, writes_append]
    rw [← e0] at h1
    rw [h1, bk]
    show Res.bind (Res.bind (writes _ ([sy].flatMap _)) _) _ = _
    rw [List.flatMap_singleton, h2, bk, h3, bk]
    show writes _ ([k1, k2].flatMap _) = _
    rw [show [k1, k2] = [k1] ++ [k2] from rfl, List.flatMap_append, writes_append, List.flatMap_singleton, h4, bk, List.flatMap_singleton, h5]
  · rw [show s.cpos + (gap.length + 1 + s.dlen + 2) = s.cpos + gap.length + 1 + s.dlen + 2 by omega]
    obtain ⟨⟩ := s
    simp only at hstep
    subst hstep
    rfl

/-- Zero bytes in the gap are counted. -/
theorem gap_zeros (s : S) (hb : s.ty.bpt < 60000) (t r k0 k1 : Nat) (b : List Nat) (ht : t < s.tsize) :
    ∀ (n c pos : Nat), c + n < s.ty.g2 → s.ty.g2 < 60000 → pos + n ≤ s.ty.bpt →
      writes (ww s .gap3 c t r pos k0 k1 b) ((List.replicate n ⟨0, false, false⟩).flatMap (held s.ty.rate)) =
        .ok (ww s .gap3 (c + n) t r (pos + n) k0 k1 b) := by
  intro n
  induction n with
  | zero => intro c pos _ _ _; rfl
  | succ n ih =>
    intro c pos hc hg hp
    have h2 := take_one s (ww s .gap3 (c + 1) t r (pos + 1) k0 k1 b) .gap3 c t r pos k0 k1 b ⟨0, false, false⟩ 0 hb (by omega) ht (by omega) (by
      have e : gapByte (ww s .gap3 (c + 1) t r (pos + 1) k0 k1 b) 0xcc 65535 0 = ww s .gap3 (c + 1) t r (pos + 1) k0 k1 b := rfl
      show (wrGap3 _ 0).bind _ = _
      unfold wrGap3
      rw [e, ww_count, ww_ty, if_neg (show ¬ c + 1 ≥ s.ty.g2 by omega), bk, bk]
      exact congrArg (fun z => Res.ok (z, 0)) (if_neg (by split <;> decide)))
      (by show pos + 1 ≤ s.ty.bpt; omega)
    rw [List.replicate_succ, List.flatMap_cons, writes_append, h2, bk, ih (c + 1) (pos + 1) (by omega) hg (by omega)]
    rw [show c + 1 + n = c + (n + 1) by omega, show pos + 1 + n = pos + (n + 1) by omega]

theorem setBs_mid : ∀ (vs a o p : List Nat) (s : S), o.length = vs.length → s.cbuf = some (a ++ o ++ p) →
    setBs s a.length vs = .ok { s with cbuf := some (a ++ vs ++ p) } := by
  intro vs
  induction vs with
  | nil =>
    intro a o p s ho hs
    have : o = [] := List.length_eq_zero_iff.1 ho
    subst this
    rw [setBs, ← hs]
  | cons v vs ih =>
    intro a o p s ho hs
    obtain ⟨x, o, rfl⟩ : ∃ x o', o = x :: o' := by
      cases o with
      | nil => simp at ho
      | cons x o => exact ⟨x, o, rfl⟩
    rw [setBs]
    have e : setB s a.length v = .ok { s with cbuf := some (a ++ v :: o ++ p) } := by
      unfold setB
      rw [hs]
      simp only
      rw [if_pos (by simp only [List.length_append, List.length_cons]; omega), set_mid]
    rw [e, bk]
    have k := ih (a ++ [v]) o p { s with cbuf := some (a ++ v :: o ++ p) } (by simpa using ho) (by simp)
    rw [show (a ++ [v]).length = a.length + 1 by simp] at k
    rw [k]
    simp

/-- **C92 fails for a gap as long as the drive's own:** `g2` zero bytes written ahead of the data replace the count field of
record zero by ones, whatever record was to be written. -/
theorem C92_violated_long_gap (s : S) (ht : s.ty ∈ diskTypes) (hst : s.state = .gap3) (hstep : s.step = 0) (hc : s.count = 0)
    (pre old post : List Nat) (hbuf : s.cbuf = some (pre ++ old ++ post)) (hpre : pre.length = 5 + s.tstart) (hold : old.length = 8)
    (htr : s.tpos < s.tsize) (hrev : s.cpos + s.ty.g2 ≤ s.ty.bpt) :
    ∃ s', writes s ((List.replicate s.ty.g2 ⟨0, false, false⟩).flatMap (held s.ty.rate)) = .ok s' ∧
      s'.cbuf = some (pre ++ List.replicate 8 255 ++ post) ∧ s'.state = .fin := by
  have hS := std _ ht
  have hb := hS.bpt
  have hg2 := hS.g2
  have hg : 1 ≤ s.ty.g2 := by
    have : ∀ t ∈ diskTypes, 1 ≤ t.g2 := by decide
    exact this _ ht
  have e0 : s = ww s .gap3 0 s.tpos s.rpos s.cpos s.ck0 s.ck1 (pre ++ old ++ post) := by
    obtain ⟨⟩ := s
    simp only at hst hstep hbuf hc
    subst hst hstep hbuf hc
    rfl
  have h1 := gap_zeros s hb s.tpos s.rpos s.ck0 s.ck1 (pre ++ old ++ post) htr (s.ty.g2 - 1) 0 s.cpos (by omega) hg2 (by omega)
  rw [← e0] at h1
  obtain ⟨g, hgg⟩ : ∃ g, s.ty.g2 = g + 1 := ⟨s.ty.g2 - 1, by omega⟩
  have hsplit : List.replicate s.ty.g2 (⟨0, false, false⟩ : Io) = List.replicate (s.ty.g2 - 1) ⟨0, false, false⟩ ++ [⟨0, false, false⟩] := by
    rw [hgg, List.replicate_succ']
    rfl
  have hw := take_one s
    { ww s .fin 0 5 5 (s.cpos + (s.ty.g2 - 1) + 1) 255 255 (pre ++ List.replicate 8 255 ++ post) with cbuf := some (pre ++ List.replicate 8 255 ++ post) }
    .gap3 (0 + (s.ty.g2 - 1)) s.tpos s.rpos (s.cpos + (s.ty.g2 - 1)) s.ck0 s.ck1 (pre ++ old ++ post) ⟨0, false, false⟩ 0 hb (by omega) htr (by omega) (by
      have e : gapByte (ww s .gap3 (0 + (s.ty.g2 - 1) + 1) s.tpos s.rpos (s.cpos + (s.ty.g2 - 1) + 1) s.ck0 s.ck1 (pre ++ old ++ post)) 0xcc 65535 0 =
        ww s .gap3 (0 + (s.ty.g2 - 1) + 1) s.tpos s.rpos (s.cpos + (s.ty.g2 - 1) + 1) s.ck0 s.ck1 (pre ++ old ++ post) := rfl
      have eo : overrun (ww s .gap3 (0 + (s.ty.g2 - 1) + 1) s.tpos s.rpos (s.cpos + (s.ty.g2 - 1) + 1) s.ck0 s.ck1 (pre ++ old ++ post)) =
          .ok { ww s .fin 0 5 5 (s.cpos + (s.ty.g2 - 1) + 1) 255 255 (pre ++ old ++ post) with cbuf := some (pre ++ List.replicate 8 255 ++ post) } := by
        show setBs (ww s .fin 0 5 5 (s.cpos + (s.ty.g2 - 1) + 1) 255 255 (pre ++ old ++ post)) (5 + s.tstart) (List.replicate 8 255) = _
        rw [← hpre]
        exact setBs_mid _ _ _ _ _ (by rw [hold]; rfl) rfl
      show (wrGap3 _ 0).bind _ = _
      unfold wrGap3
      rw [e, ww_count, ww_ty, if_pos (show 0 + (s.ty.g2 - 1) + 1 ≥ s.ty.g2 by omega), eo, bk, bk]
      exact congrArg (fun z => Res.ok (z, 0)) (if_neg (by split <;> decide)))
    (by show s.cpos + (s.ty.g2 - 1) + 1 ≤ s.ty.bpt; omega)
  have hall := writes_append ((List.replicate (s.ty.g2 - 1) ⟨0, false, false⟩).flatMap (held s.ty.rate)) (held s.ty.rate ⟨0, false, false⟩) s
  rw [h1, bk] at hall
  have hall' := hall.trans hw
  rw [hsplit, List.flatMap_append, List.flatMap_singleton]
  exact ⟨_, hall', rfl, rfl⟩

end Verif.Dasd
