import Verif.Cpu50.Frame

/-!
# Model 2050: storage protection as an invariant of the machine cycle

`Guard` holds between any two machine cycles, whatever instruction is carried out: a word which
waits to be written may be written, or is in storage already.
-/

namespace Verif.Cpu50

/-! ### One microinstruction -/

/-- Storage and its cycle stay. -/
theorem exec_mem {e : Env} {w : Word} {ex : Bool} {s s' : S} (h : exec e w ex s = .ok s') :
    s'.mem = s.mem ∧ s'.SA = s.SA ∧ s'.bump = s.bump ∧ s'.ms = s.ms := by
  obtain ⟨x, y, h1, h2, rfl⟩ := exec_parts h
  have a1 : (finish w (upStep w (wmStep w (wsStep w y)))).but = y.s.but := by
    have b1 : (finish w (upStep w (wmStep w (wsStep w y)))).but = (wmStep w (wsStep w y)).s.but :=
      congrArg (fun c => (c.1, c.2.1, c.2.2.1.1, c.2.2.2.1, c.2.2.2.2))
        ((fin_core w _).trans (up_core w (wmStep w (wsStep w y))))
    have b2 : (wsStep w y).s.but = y.s.but :=
      congrArg (fun c => (c.1, c.2.1, c.2.2.1.1, c.2.2.2.1, c.2.2.2.2)) (ws_core w y)
    rw [b1, wm_but, b2]
  have a2 : (y.s.mem, y.s.SA, y.s.bump, y.s.ms) = (x.s.mem, x.s.SA, x.s.bump, x.s.ms) :=
    congrArg (fun c => c.1) (ssL_most h2)
  have a3 := congrArg (fun c => c.1) (tr_rest h1).1
  have a4 := congrArg (fun c => c.1) (early_core e w ex s)
  have a5 := (((congrArg (fun c => c.1) a1).trans a2).trans a3).trans a4
  exact ⟨congrArg (fun c => c.1) a5, congrArg (fun c => c.2.1) a5,
    congrArg (fun c => c.2.2.1) a5, congrArg (fun c => c.2.2.2) a5⟩

theorem exec_data {e : Env} {w : Word} {ex : Bool} {s s' : S} (h : exec e w ex s = .ok s')
    (h8 : w.tr = 8 → w.ce % 8 ≠ 0 ∧ w.ce % 8 ≠ 4)
    (hs : storeTr w = true → w.iv ≠ 4 ∧ w.iv ≠ 7 ∧ w.ss ≠ 31) :
    (s'.SDR = s.SDR ∧ s'.updD = s.updD) ∨
      (s.allowed ∧ s'.KEY = s.KEY ∧ s'.MP = s.MP ∧ storeTr w = true ∧ s'.updD = true) := by
  obtain ⟨x, y, h1, h2, rfl⟩ := exec_parts h
  have b1 : (finish w (upStep w (wmStep w (wsStep w y)))).but = y.s.but := by
    have b1 : (finish w (upStep w (wmStep w (wsStep w y)))).but = (wmStep w (wsStep w y)).s.but :=
      congrArg (fun c => (c.1, c.2.1, c.2.2.1.1, c.2.2.2.1, c.2.2.2.2))
        ((fin_core w _).trans (up_core w (wmStep w (wsStep w y))))
    have b2 : (wsStep w y).s.but = y.s.but :=
      congrArg (fun c => (c.1, c.2.1, c.2.2.1.1, c.2.2.2.1, c.2.2.2.2)) (ws_core w y)
    rw [b1, wm_but, b2]
  generalize finish w (upStep w (wmStep w (wsStep w y))) = s' at *
  have c1 : (s'.SDR, s'.updD) = (y.s.SDR, y.s.updD) := congrArg (fun c => c.2.1) b1
  have c2 : s'.KEY = y.s.KEY := congrArg (fun c => c.2.2.1) b1
  have c3 : s'.MP = y.s.MP := congrArg (fun c => c.2.2.2.2) b1
  have d1 : (y.s.SDR, y.s.updD) = (x.s.SDR, x.s.updD) := congrArg (fun c => c.2.1) (ssL_most h2)
  have d2 : y.s.KEY = x.s.KEY := congrArg (fun c => c.2.2.1) (ssL_most h2)
  have f := early_core e w ex s
  have f1 : ((early e w ex s).s.SDR, (early e w ex s).s.updD) = (s.SDR, s.updD) :=
    congrArg (fun c => c.2.1) f
  have f2 : (early e w ex s).s.KEY = s.KEY := congrArg (fun c => c.2.2.1.1) f
  have f3 : (early e w ex s).s.MP = s.MP := congrArg (fun c => c.2.2.2.2) f
  rcases tr_data h1 h8 with ⟨g1, g2⟩ | ⟨g1, g6, g3⟩
  · left
    have : (s'.SDR, s'.updD) = (s.SDR, s.updD) := by
      rw [c1, d1, ← f1, g1, g2]
    exact ⟨congrArg Prod.fst this, congrArg Prod.snd this⟩
  · right
    obtain ⟨hi4, hi7, hss⟩ := hs g3
    have f4 : (early e w ex s).s.SAR = s.SAR :=
      congrArg (fun c => c.1) (early_req e w ex s hi4 hi7)
    have h28 : w.tr ≠ 28 := by
      intro h; unfold storeTr at g3; rw [h] at g3; exact absurd g3 (by decide)
    have g4 := (tr_rest h1).2.2 h28
    have g5 : x.s.MP = (early e w ex s).s.MP := congrArg (fun c => c.2.2.2) (tr_rest h1).1
    refine ⟨?_, by rw [c2, d2, g4, f2], by rw [c3, ssL_keys h2 hss, g5, f3], g3,
      ((congrArg Prod.snd c1).trans (congrArg Prod.snd d1)).trans g6⟩
    unfold S.allowed keyIx at g1
    rw [f2, f3, f4] at g1
    exact g1

theorem exec_sar {e : Env} {w : Word} {ex : Bool} {s s' : S} (h : exec e w ex s = .ok s')
    (h4 : w.iv ≠ 4) (h7 : w.iv ≠ 7) (h9 : w.tr ≠ 9) (h10 : w.tr ≠ 10) (h11 : w.tr ≠ 11) :
    s'.SAR = s.SAR ∨ s'.initMem = true ∨ s'.initBump = true := by
  obtain ⟨x, y, h1, h2, rfl⟩ := exec_parts h
  have a1 := (fin_req w _).trans (up_req w (wmStep w (wsStep w y)))
  generalize finish w (upStep w (wmStep w (wsStep w y))) = s' at *
  have b : s'.initMem = (wmStep w (wsStep w y)).s.initMem := congrArg (fun c => c.2.1) a1
  have b1 : s'.initBump = (wmStep w (wsStep w y)).s.initBump := congrArg (fun c => c.2.2) a1
  have b2 : s'.SAR = (wmStep w (wsStep w y)).s.SAR := congrArg (fun c => c.1) a1
  have c1 := ws_req w y
  have c2 := ssL_req h2
  have c3 := early_req e w ex s h4 h7
  obtain ⟨d1, d2⟩ := wm_req w (wsStep w y)
  have e1 : (wsStep w y).s.initMem = x.s.initMem := (congrArg (fun c => c.2.1) c1).trans
    (congrArg (fun c => c.2.1) c2)
  have e2 : (wsStep w y).s.SAR = x.s.SAR := (congrArg (fun c => c.1) c1).trans
    (congrArg (fun c => c.1) c2)
  rcases d2 with d2 | d2
  · have d3 : (wmStep w (wsStep w y)).s.SAR = (wsStep w y).s.SAR := congrArg (fun c => c.1) d2
    rcases (tr_req h1 h9 h10 h11).2 with ⟨f1, -⟩ | f1
    · left
      rw [b2, d3, e2, f1]; exact congrArg (fun c => c.1) c3
    · right; left; rw [b, d1, e1, f1]
  · right; right; rw [b1]; exact d2.1

theorem exec_ini {e : Env} {w : Word} {ex : Bool} {s s' : S} (h : exec e w ex s = .ok s')
    (hi : iniW w = false) : s'.initMem = s.initMem ∧ s'.initBump = s.initBump := by
  obtain ⟨x, y, h1, h2, rfl⟩ := exec_parts h
  have a1 := (fin_req w _).trans (up_req w (wmStep w (wsStep w y)))
  have h5 := hi
  unfold iniW at h5
  simp only [Bool.or_eq_false_iff, beq_eq_false_iff_ne] at h5
  obtain ⟨⟨⟨-, h4⟩, h7⟩, h8⟩ := h5
  have c3 := early_req e w ex s h4 h7
  have c4 := tr_ini h1 hi
  have c5 : (wmStep w (wsStep w y)).s.req = (wsStep w y).s.req := by
    rcases (wm_req w (wsStep w y)).2 with h | h
    · exact h
    · exact absurd h.2 h8
  have c6 := ((((a1.trans c5).trans (ws_req w y)).trans (ssL_req h2)).trans c4).trans c3
  exact ⟨congrArg (fun c => c.2.1) c6, congrArg (fun c => c.2.2) c6⟩

/-! ### The invariant -/

/-- Words which set the address register and may start no reference. -/
def careful (w : Word) : Bool := w.tr == 9 || w.tr == 10 || w.tr == 11

/-- A store into word `i` is allowed: the protection key is zero or the storage key of the block,
2048 bytes, the word is in. -/
def S.may (s : S) (i : Nat) : Prop := s.KEY = 0 ∨ s.KEY.setWidth 8 = s.MP (i / 512)

/-- Between two machine cycles. -/
structure Guard (s : S) : Prop where
  same : s.ms = .r1 ∨ s.ms = .r2 ∨ s.ms = .r3 → s.initMem = false → s.initBump = false →
    s.SA = s.SAR &&& 0x3ffff
  free : s.updD = true → s.bump = false → s.mem (memIx s.SA) = s.SDR ∨ s.may (memIx s.SA)
  clean : s.ms = .r3 → s.updD = false → s.bump = false → s.mem (memIx s.SA) = s.SDR
  next : s.initMem = true ∨ s.initBump = true → careful (ros s.ROAR) = false

/-- The state in which a microinstruction is carried out. -/
structure Exe (w : Word) (s : S) : Prop where
  im : s.initMem = false
  ib : s.initBump = false
  free : s.updD = true → s.bump = false → s.mem (memIx s.SA) = s.SDR
  clean : s.ms = .r3 → s.updD = false → s.bump = false → s.mem (memIx s.SA) = s.SDR
  st : storeTr w = true → s.SA = s.SAR &&& 0x3ffff
  run : s.ms = .r1 ∨ s.ms = .r2 ∨ s.ms = .r3 →
    s.SA = s.SAR &&& 0x3ffff ∧ w.iv ≠ 4 ∧ w.iv ≠ 7 ∧ careful w = false

/-- What the storage part does not change. -/
def S.side (s : S) : (BitVec 4 × B) × (BitVec 4 × Bool) × (Nat → B) × W :=
  ((s.KEY, s.MASK), (s.AMWP, s.wait), s.MP, s.SAR)

theorem memIx_of {x y : W} (h : x = y) : memIx x = memIx y := by rw [h]

theorem key_ix {s : S} (hm : ∀ i, 128 ≤ i → s.MP i = 0) (ha : s.allowed)
    (h : s.SA = s.SAR &&& 0x3ffff) : s.may (memIx s.SA) := by
  rcases ha with ha | ⟨ha, hb⟩
  · exact .inl ha
  · by_cases hk : s.KEY = 0
    · exact .inl hk
    · refine .inr ?_
      have h1 : keyIx s < 128 := by
        rcases Nat.lt_or_ge (keyIx s) 128 with h1 | h1
        · exact h1
        · rw [hm _ h1] at hb
          exfalso; apply hk
          apply BitVec.eq_of_toNat_eq
          have := congrArg BitVec.toNat hb
          rw [BitVec.toNat_setWidth] at this
          have h2 : s.KEY.toNat < 16 := s.KEY.isLt
          rw [Nat.mod_eq_of_lt (by omega)] at this
          exact this
      have h2 : keyIx s = memIx s.SA / 512 := by
        unfold keyIx memIx at *
        rw [h]
        rw [BitVec.toNat_ushiftRight, Nat.shiftRight_eq_div_pow] at *
        rw [BitVec.toNat_ushiftRight, Nat.shiftRight_eq_div_pow, BitVec.toNat_and,
          show (0x3ffff : W).toNat = 2 ^ 18 - 1 from by decide, Nat.and_two_pow_sub_one_eq_mod]
        omega
      rw [← h2]; exact hb

/-- Result of the storage part of a cycle. -/
structure Mid' (w : Word) (s : S) (p : Held) : Prop where
  side : p.2.side = s.side
  chg : ∀ i, p.2.mem i ≠ s.mem i → s.may i
  held : p.1 = true → Guard p.2 ∧ (p.2.ROAR = s.ROAR ∨ p.2.ROAR = 0x1c0)
  exe : p.1 = false → Exe w p.2

theorem not_inter {tr : Nat} (h : interlocked tr = false) :
    tr ≠ 4 ∧ tr ≠ 13 ∧ tr ≠ 17 ∧ tr ≠ 29 ∧ tr ≠ 9 ∧ tr ≠ 10 ∧ tr ≠ 11 := by
  refine ⟨?_, ?_, ?_, ?_, ?_, ?_, ?_⟩ <;> (intro h1; rw [h1] at h; exact absurd h (by decide))

theorem inter_store {w : Word} (h : interlocked w.tr = false) : storeTr w = false := by
  obtain ⟨h1, h2, h3, h4, -⟩ := not_inter h
  unfold storeTr
  simp only [Bool.or_eq_false_iff, beq_eq_false_iff_ne]
  exact ⟨⟨⟨h1, h2⟩, h3⟩, h4⟩

theorem inter_careful {w : Word} (h : interlocked w.tr = false) : careful w = false := by
  obtain ⟨-, -, -, -, h1, h2, h3⟩ := not_inter h
  unfold careful
  simp only [Bool.or_eq_false_iff, beq_eq_false_iff_ne]
  exact ⟨⟨h1, h2⟩, h3⟩

theorem uses_iv {w : Word} (h : usesStore w = false) : w.iv ≠ 4 ∧ w.iv ≠ 7 := by
  unfold usesStore at h
  simp only [Bool.or_eq_false_iff, beq_eq_false_iff_ne] at h
  exact ⟨h.1.2, h.2⟩

/-- What is left of the conditions after the old word is written back. -/
theorem writeBack_eq {e : Env} {s s1 : S} (h : writeBack e s = .ok s1) :
    s1.side = s.side ∧ s1.updD = false ∧ s1.ms = s.ms ∧ s1.initMem = s.initMem ∧
    s1.initBump = s.initBump ∧ s1.ROAR = s.ROAR ∧
    ∀ i, s1.mem i ≠ s.mem i → s.updD = true ∧ s.bump = false ∧ i = memIx s.SA ∧
      s.mem (memIx s.SA) ≠ s.SDR := by
  unfold writeBack at h
  split at h
  · rename_i hu
    split at h
    · cases h; exact ⟨rfl, rfl, rfl, rfl, rfl, rfl, fun i hi => absurd rfl hi⟩
    · rename_i hb
      split at h
      · cases h
        refine ⟨rfl, rfl, rfl, rfl, rfl, rfl, fun i hi => ?_⟩
        by_cases hx : i = memIx s.SA
        · refine ⟨hu, by simpa using hb, hx, ?_⟩
          intro he
          apply hi
          show (if i = memIx s.SA then s.SDR else s.mem i) = s.mem i
          rw [if_pos hx, hx, he]
        · exact absurd (show (if i = memIx s.SA then s.SDR else s.mem i) = s.mem i from if_neg hx) hi
      · cases h
  · rename_i hu
    cases h
    exact ⟨rfl, by simpa using hu, rfl, rfl, rfl, rfl, fun i hi => absurd rfl hi⟩

theorem accept_eq (e : Env) (w : Word) (s : S) (hu : s.updD = false) (hm : s.ms = .w1)
    (hw : s.initMem = true ∨ s.initBump = true → careful w = false) :
    (accept e w s).2.side = s.side ∧ (accept e w s).2.mem = s.mem ∧
    ((accept e w s).1 = true → Guard (accept e w s).2 ∧
      ((accept e w s).2.ROAR = s.ROAR ∨ (accept e w s).2.ROAR = 0x1c0)) ∧
    ((accept e w s).1 = false → Exe w (accept e w s).2) := by
  unfold accept
  split
  · rename_i hi
    have hi' : s.initMem = true ∨ s.initBump = true := by simpa using hi
    split
    · refine ⟨rfl, rfl, fun _ => ⟨⟨?_, ?_, ?_, ?_⟩, .inr rfl⟩, fun h => nomatch h⟩
      · intro h; rw [show (_ : S).ms = s.ms from rfl, hm] at h
        rcases h with h | h | h <;> cases h
      · intro h; exact absurd (hu.symm.trans h) (by decide)
      · intro h; rw [show (_ : S).ms = s.ms from rfl, hm] at h; cases h
      · rintro (h | h) <;> cases h
    · refine ⟨rfl, rfl, fun _ => ⟨⟨fun _ _ _ => rfl, ?_, ?_, ?_⟩, .inl rfl⟩, fun h => ?_⟩
      · intro h; exact absurd (hu.symm.trans h) (by decide)
      · intro h; cases h
      · rintro (h | h) <;> cases h
      · rw [Bool.or_eq_false_iff] at h
        refine ⟨rfl, rfl, ?_, ?_, fun _ => rfl, fun _ => ⟨rfl, (uses_iv h.1).1, (uses_iv h.1).2, hw hi'⟩⟩
        · intro h; exact absurd (hu.symm.trans h) (by decide)
        · intro h; cases h
  · rename_i hi
    have h0 : s.initMem = false ∧ s.initBump = false := by simpa using hi
    refine ⟨rfl, rfl, (fun h => nomatch h), fun _ => ⟨h0.1, h0.2, ?_, ?_, fun _ => rfl, ?_⟩⟩
    · intro h; exact absurd (hu.symm.trans h) (by decide)
    · intro h; rw [show (_ : S).ms = s.ms from rfl, hm] at h; cases h
    · intro h; rw [show (_ : S).ms = s.ms from rfl, hm] at h
      rcases h with h | h | h <;> cases h

theorem guard_mem {e : Env} {s : S} {p : Held} (g : Guard s)
    (h : memCycle e (ros s.ROAR) s = .ok p) : Mid' (ros s.ROAR) s p := by
  unfold memCycle at h
  split at h <;> rename_i hm
  · -- r1
    cases h
    refine ⟨rfl, fun i hi => absurd rfl hi, fun _ => ⟨⟨?_, g.free, ?_, g.next⟩, .inl rfl⟩, fun h => ?_⟩
    · intro _ h1 h2; exact g.same (.inl hm) h1 h2
    · intro h; cases h
    · simp only [Bool.or_eq_false_iff] at h
      obtain ⟨⟨⟨⟨h1, h2⟩, h3⟩, h4⟩, h5⟩ := h
      refine ⟨h3, h4, ?_, ?_, ?_, fun _ => ⟨g.same (.inl hm) h3 h4, (uses_iv h2).1, (uses_iv h2).2,
        inter_careful h1⟩⟩
      · intro h; exact absurd (h5.symm.trans h) (by decide)
      · intro h; cases h
      · intro h; rw [inter_store h1] at h; cases h
  · -- r2
    have key : ∀ s1 : S, s1.side = s.side → s1.mem = s.mem → s1.SA = s.SA → s1.bump = s.bump →
        s1.updD = s.updD → s1.initMem = s.initMem → s1.initBump = s.initBump → s1.ms = .r3 →
        s1.ROAR = s.ROAR →
        (s.bump = false → s1.SDR = s.mem (memIx s.SA) ∨ (s.updD = true ∧ s1.SDR = s.SDR)) →
        Mid' (ros s.ROAR) s (interlocked (ros s.ROAR).tr || usesStore (ros s.ROAR) ||
          s.initMem || s.initBump || s.updD, s1) := by
      intro s1 e1 e2 e3 e4 e5 e6 e7 e8 e9 e10
      have eS : s1.SAR = s.SAR := congrArg (fun c => c.2.2.2) e1
      have eM : ∀ i, s1.may i = s.may i := by
        intro i
        unfold S.may
        rw [show s1.KEY = s.KEY from congrArg (fun c => c.1.1) e1,
          show s1.MP = s.MP from congrArg (fun c => c.2.2.1) e1]
      have cl : s1.updD = false → s1.bump = false → s1.mem (memIx s1.SA) = s1.SDR := by
        intro h1 h2
        rcases e10 (e4 ▸ h2) with h3 | h3
        · rw [e2, e3, h3]
        · rw [e5, h3.1] at h1; cases h1
      refine ⟨e1, fun i hi => absurd (congrFun e2 i) hi, fun _ => ⟨⟨?_, ?_, fun _ => cl, ?_⟩, .inl e9⟩,
        fun h => ?_⟩
      · intro _ h1 h2; rw [e3, eS]; exact g.same (.inr (.inl hm)) (e6 ▸ h1) (e7 ▸ h2)
      · intro h1 h2
        rw [e4] at h2; rw [e5] at h1
        rcases e10 h2 with h3 | h3
        · left; rw [e2, e3, h3]
        · rw [eM, e2, e3, h3.2]; exact g.free h1 h2
      · show s1.initMem = true ∨ s1.initBump = true → careful (ros s1.ROAR) = false
        rw [e6, e7, e9]; exact g.next
      · simp only [Bool.or_eq_false_iff] at h
        obtain ⟨⟨⟨⟨h1, h2⟩, h3⟩, h4⟩, h5⟩ := h
        refine ⟨e6.trans h3, e7.trans h4, ?_, fun _ => cl, ?_, fun _ => ⟨?_, (uses_iv h2).1,
          (uses_iv h2).2, inter_careful h1⟩⟩
        · intro h; rw [show (_ : S).updD = s1.updD from rfl, e5, h5] at h; cases h
        · intro h; rw [inter_store h1] at h; cases h
        · show s1.SA = s1.SAR &&& _
          rw [e3, eS]; exact g.same (.inr (.inl hm)) h3 h4
    split at h
    · unfold fetch memRead at h
      split at h
      · rename_i hb
        cases h
        exact key _ rfl rfl rfl rfl rfl rfl rfl rfl rfl
          (fun h => absurd (h.symm.trans hb) (by decide))
      · split at h
        · cases h; exact key _ rfl rfl rfl rfl rfl rfl rfl rfl rfl (fun _ => .inl rfl)
        · cases h
    · rename_i hu
      cases h
      refine key _ rfl rfl rfl rfl rfl rfl rfl rfl rfl (fun _ => .inr ⟨?_, rfl⟩)
      simp only [Bool.or_eq_true, Bool.not_eq_true', not_or, Bool.not_eq_false] at hu
      exact hu.1
  · -- r3
    split at h
    · cases h
      refine ⟨rfl, fun i hi => absurd rfl hi, fun _ => ⟨⟨?_, g.free, ?_, g.next⟩, .inl rfl⟩,
        fun h => nomatch h⟩
      · rintro (h | h | h) <;> cases h
      · intro h; cases h
    · rename_i hi
      have h0 : s.initMem = false ∧ s.initBump = false := by simpa using hi
      have sa := g.same (.inr (.inr hm)) h0.1 h0.2
      split at h
      · -- store
        unfold store memWrite at h
        split at h
        · rename_i hb
          cases h
          refine ⟨rfl, fun i hi => absurd rfl hi, (fun h => nomatch h), fun _ => ⟨h0.1, h0.2, ?_, ?_,
            fun _ => sa, ?_⟩⟩
          · intro _ h2; exact absurd (h2.symm.trans hb) (by decide)
          · intro h; cases h
          · rintro (h | h | h) <;> cases h
        · rename_i hb
          have hb' : s.bump = false := by simpa using hb
          split at h
          · cases h
            refine ⟨rfl, fun i hi => ?_, (fun h => nomatch h), fun _ => ⟨h0.1, h0.2, ?_, ?_,
              fun _ => sa, ?_⟩⟩
            · by_cases hx : i = memIx s.SA
              · rw [hx]
                have ne : s.mem (memIx s.SA) ≠ s.SDR := by
                  intro he
                  apply hi
                  show (if i = memIx s.SA then s.SDR else s.mem i) = s.mem i
                  rw [if_pos hx, hx, he]
                cases hu : s.updD with
                | true => exact (g.free hu hb').resolve_left ne
                | false => exact absurd (g.clean hm hu hb') ne
              · exact absurd (show (if i = memIx s.SA then s.SDR else s.mem i) = s.mem i
                  from if_neg hx) hi
            · intro _ _
              show (if memIx s.SA = memIx s.SA then s.SDR else _) = s.SDR
              rw [if_pos rfl]
            · intro h; cases h
            · rintro (h | h | h) <;> cases h
          · cases h
      · rename_i hu
        have hu' : s.updD = false := by
          simp only [Bool.or_eq_true, not_or, Bool.not_eq_true] at hu; exact hu.1
        cases h
        refine ⟨rfl, fun i hi => absurd rfl hi, (fun h => nomatch h), fun _ => ⟨h0.1, h0.2, ?_, ?_,
          fun _ => sa, ?_⟩⟩
        · intro h; exact absurd (hu'.symm.trans h) (by decide)
        · intro h; cases h
        · rintro (h | h | h) <;> cases h
  · -- w1
    cases h1 : writeBack e s with
    | oob => rw [h1] at h; cases h
    | chan => rw [h1] at h; cases h
    | ok s1 =>
      rw [h1] at h
      obtain ⟨b1, b2, b3, b4, b5, b6, b7⟩ := writeBack_eq h1
      cases h
      obtain ⟨c1, c2, c3, c4⟩ := accept_eq e (ros s.ROAR) s1 b2 (b3.trans hm)
        (by rw [b4, b5]; exact g.next)
      refine ⟨c1.trans b1, fun i hi => ?_, fun h => ⟨(c3 h).1, ?_⟩, c4⟩
      · rw [show (accept e (ros s.ROAR) s1).2.mem = s1.mem from c2] at hi
        obtain ⟨d1, d2, d3, d4⟩ := b7 i hi
        rw [d3]; exact (g.free d1 d2).resolve_left d4
      · exact (c3 h).2.imp (fun h2 => h2.trans b6) id
  · -- before the first reference
    unfold memRead at h
    split at h
    · change (writeBack e _).bind _ = _ at h
      cases h1 : writeBack e { s with SDR := s.mem (memIx s.SA), ms := .w1 } with
      | oob => rw [h1] at h; cases h
      | chan => rw [h1] at h; cases h
      | ok s1 =>
        rw [h1] at h
        obtain ⟨b1, b2, b3, b4, b5, b6, b7⟩ := writeBack_eq h1
        cases h
        obtain ⟨c1, c2, c3, c4⟩ := accept_eq e (ros s.ROAR) s1 b2 b3
          (by rw [b4, b5]; exact g.next)
        refine ⟨c1.trans b1, fun i hi => ?_, fun h => ⟨(c3 h).1, ?_⟩, c4⟩
        · rw [show (accept e (ros s.ROAR) s1).2.mem = s1.mem from c2] at hi
          obtain ⟨-, -, -, d4⟩ := b7 i hi
          exact absurd rfl d4
        · exact (c3 h).2.imp (fun h2 => h2.trans b6) id
    · cases h

end Verif.Cpu50
