import Verif.Cpu50.Bound
import Verif.Cpu50.Props4

/-!
# Model 2050: the simulator stays inside its arrays

`Safe` holds between any two machine cycles: the word in the storage cycle exists, and where the
microprogram is about to use the address register without a reference, the register holds the
address of a byte of storage.
-/

namespace Verif.Cpu50
attribute [local irreducible] ros

/-- The address register holds an address of storage, or of the local store behind it. -/
def SarOk (e : Env) (s : S) : Prop :=
  s.SAR.toNat ≤ e.memMax.toNat ∨ s.bump = true ∧ s.SAR.toNat < 2 ^ 18

/-- The word of the storage cycle exists. -/
def SaOk (e : Env) (s : S) : Prop := s.bump = true ∨ memIx s.SA < words e

/-- Between two machine cycles. -/
structure Safe (e : Env) (s : S) : Prop where
  ms : s.ms ≠ .zero
  cyc : s.ms = .r1 ∨ s.ms = .r2 ∨ s.ms = .r3 → SaOk e s
  upd : s.updD = true → SaOk e s
  aux : s.initBump = true → s.SAR.toNat < 2 ^ 18
  sar : s.initMem = false → s.initBump = false → loose s.ROAR = false → SarOk e s
  reach : every s.ROAR = true

theorem and18 (x : W) : (x &&& 0x3ffff).toNat = x.toNat % 2 ^ 18 := by
  rw [BitVec.toNat_and, show (0x3ffff : W).toNat = 2 ^ 18 - 1 from by decide,
    Nat.and_two_pow_sub_one_eq_mod]

theorem SarOk.lt {e : Env} {s : S} (ho : EnvOk e) (h : SarOk e s) : s.SAR.toNat < 2 ^ 18 := by
  rcases h with h | h
  · have := ho.top; have := ho.lim; omega
  · exact h.2

theorem SarOk.key {e : Env} {s : S} (ho : EnvOk e) (h : SarOk e s) : keyIx s < 256 := by
  have := h.lt ho
  unfold keyIx
  rw [BitVec.toNat_ushiftRight, Nat.shiftRight_eq_div_pow]
  omega

theorem SarOk.sa {e : Env} {s : S} (ho : EnvOk e) (h : SarOk e s) (hs : s.SA = s.SAR &&& 0x3ffff) :
    SaOk e s := by
  rcases h with h | h
  · right
    have := ho.top; have := ho.lim
    unfold memIx
    rw [hs, BitVec.toNat_ushiftRight, and18, Nat.shiftRight_eq_div_pow,
      Nat.mod_eq_of_lt (by omega)]
    omega
  · exact .inl h.1

/-! ### The storage part -/

/-- Result of the storage part of a cycle. -/
structure MidS (e : Env) (n : Nat) (s : S) (p : Held) : Prop where
  held : p.1 = true → Safe e p.2
  im : p.1 = false → p.2.initMem = false
  ib : p.1 = false → p.2.initBump = false
  ms : p.1 = false → p.2.ms ≠ .zero
  cyc : p.1 = false → p.2.ms = .r1 ∨ p.2.ms = .r2 ∨ p.2.ms = .r3 → SaOk e p.2
  upd : p.1 = false → p.2.updD = true → SaOk e p.2
  st : p.1 = false → storeTr (ros n) = true → loose n = false → SaOk e p.2
  sar : p.1 = false → loose n = false → SarOk e p.2

theorem accept_safe {e : Env} (ho : EnvOk e) (s : S) (hu : s.updD = false) (hm : s.ms = .w1)
    (hx : s.initBump = true → s.SAR.toNat < 2 ^ 18)
    (hq : s.initMem = false → s.initBump = false → loose s.ROAR = false → SarOk e s)
    (hr : every s.ROAR = true) :
    MidS e s.ROAR s (accept e (ros s.ROAR) s) := by
  have hno : ∀ {c : Prop}, s.updD = true → c := fun h => by rw [hu] at h; cases h
  have h1c0 : every 0x1c0 = true := by decide +kernel
  unfold accept
  split
  · rename_i hi
    split
    · refine ⟨fun _ => ⟨?_, ?_, fun h => hno h, (fun h => nomatch h), fun _ _ h => ?_, h1c0⟩,
        (fun h => nomatch h), (fun h => nomatch h), (fun h => nomatch h), (fun h => nomatch h),
        (fun h => nomatch h), (fun h => nomatch h), (fun h => nomatch h)⟩
      · show s.ms ≠ _; rw [hm]; exact fun h => nomatch h
      · show s.ms = _ ∨ s.ms = _ ∨ s.ms = _ → _; rw [hm]; rintro (h | h | h) <;> cases h
      · exact absurd (loose_1c.1.symm.trans h) (by decide)
    · rename_i hl
      have ok : SarOk e ({ s with
          SA := s.SAR &&& 0x3ffff, bump := s.initBump, initMem := false,
          initBump := false, IVA := false, ms := .r1 } : S) := by
        cases hb : s.initBump with
        | true => exact .inr ⟨rfl, hx hb⟩
        | false =>
          left
          show s.SAR.toNat ≤ _
          rw [hb] at hl
          simp only [Bool.not_false, Bool.true_and, decide_eq_true_eq, BitVec.not_lt] at hl
          exact hl
      have sa := ok.sa ho rfl
      exact ⟨fun _ => ⟨(fun h => nomatch h), fun _ => sa, fun h => hno h, (fun h => nomatch h),
        fun _ _ _ => ok, hr⟩, fun _ => rfl, fun _ => rfl, (fun _ h => nomatch h), fun _ _ => sa,
        fun _ h => hno h, fun _ _ _ => sa, fun _ _ => ok⟩
  · rename_i hi
    have h0 : s.initMem = false ∧ s.initBump = false := by simpa using hi
    refine ⟨(fun h => nomatch h), fun _ => h0.1, fun _ => h0.2, fun _ => ?_, fun _ => ?_,
      fun _ h => hno h, fun _ _ hl => ?_, fun _ hl => ?_⟩
    · show s.ms ≠ _; rw [hm]; exact fun h => nomatch h
    · show s.ms = _ ∨ s.ms = _ ∨ s.ms = _ → _; rw [hm]; rintro (h | h | h) <;> cases h
    · have q := hq h0.1 h0.2 hl
      exact SarOk.sa (s := ({ s with SA := s.SAR &&& 0x3ffff } : S)) ho q rfl
    · exact hq h0.1 h0.2 hl

/-- The storage part of a cycle stays inside storage. -/
theorem mem_safe {e : Env} (ho : EnvOk e) {s : S} (g : Safe e s) :
    ∃ p, memCycle e (ros s.ROAR) s = .ok p ∧ MidS e s.ROAR s p := by
  unfold memCycle
  split <;> rename_i hm
  · -- r1
    refine ⟨_, rfl, fun _ => ⟨(fun h => nomatch h), fun _ => g.cyc (.inl hm), g.upd, g.aux, g.sar,
      g.reach⟩, ?_, ?_, (fun _ h => nomatch h), fun _ _ => g.cyc (.inl hm), fun _ => g.upd, ?_, ?_⟩
    all_goals (intro h; simp only [Bool.or_eq_false_iff] at h)
    · exact h.1.1.2
    · exact h.1.2
    · exact fun _ _ => g.cyc (.inl hm)
    · exact g.sar h.1.1.2 h.1.2
  · -- r2
    have sa := g.cyc (.inr (.inl hm))
    have key : ∀ s1 : S, s1.SAR = s.SAR → s1.SA = s.SA → s1.bump = s.bump →
        s1.updD = s.updD → s1.initMem = s.initMem → s1.initBump = s.initBump → s1.ms = .r3 →
        s1.ROAR = s.ROAR →
        MidS e s.ROAR s (interlocked (ros s.ROAR).tr || usesStore (ros s.ROAR) ||
          s.initMem || s.initBump || s.updD, s1) := by
      intro s1 e1 e2 e3 e4 e5 e6 e7 e8
      have sa1 : SaOk e s1 := by unfold SaOk at *; rw [e2, e3]; exact sa
      have sr : s.initMem = false → s.initBump = false → loose s.ROAR = false → SarOk e s1 := by
        intro h1 h2 h3
        have := g.sar h1 h2 h3
        unfold SarOk at *; rw [e1, e3]; exact this
      refine ⟨fun _ => ⟨?_, fun _ => sa1, fun _ => sa1, ?_, ?_, ?_⟩, ?_, ?_, ?_, fun _ _ => sa1,
        fun _ _ => sa1, fun _ _ _ => sa1, ?_⟩
      · show s1.ms ≠ _; rw [e7]; exact fun h => nomatch h
      · show s1.initBump = true → s1.SAR.toNat < _; rw [e6, e1]; exact g.aux
      · show s1.initMem = false → s1.initBump = false → loose s1.ROAR = false → _
        rw [e5, e6, e8]; exact sr
      · show every s1.ROAR = true; rw [e8]; exact g.reach
      all_goals (intro h; simp only [Bool.or_eq_false_iff] at h)
      · exact e5.trans h.1.1.2
      · exact e6.trans h.1.2
      · show s1.ms ≠ _; rw [e7]; exact fun h => nomatch h
      · exact sr h.1.1.2 h.1.2
    split
    · unfold fetch memRead
      split
      · exact ⟨_, rfl, key _ rfl rfl rfl rfl rfl rfl rfl rfl⟩
      · rename_i hb
        rcases sa with sa | sa
        · exact absurd sa hb
        · rw [if_pos (show memIx (_ : S).SA < _ from sa)]
          exact ⟨_, rfl, key _ rfl rfl rfl rfl rfl rfl rfl rfl⟩
    · exact ⟨_, rfl, key _ rfl rfl rfl rfl rfl rfl rfl rfl⟩
  · -- r3
    have sa := g.cyc (.inr (.inr hm))
    split
    · refine ⟨_, rfl, fun _ => ⟨(fun h => nomatch h), ?_, g.upd, g.aux, g.sar, g.reach⟩,
        (fun h => nomatch h), (fun h => nomatch h), (fun h => nomatch h), (fun h => nomatch h),
        (fun h => nomatch h), (fun h => nomatch h), (fun h => nomatch h)⟩
      rintro (h | h | h) <;> cases h
    · rename_i hi
      have h0 : s.initMem = false ∧ s.initBump = false := by simpa using hi
      have key : ∀ s1 : S, s1.SAR = s.SAR → s1.SA = s.SA → s1.bump = s.bump →
          s1.initMem = s.initMem → s1.initBump = s.initBump → s1.ms = .w1 →
          MidS e s.ROAR s (false, s1) := by
        intro s1 e1 e2 e3 e5 e6 e7
        have sa1 : SaOk e s1 := by unfold SaOk at *; rw [e2, e3]; exact sa
        refine ⟨(fun h => nomatch h), fun _ => e5.trans h0.1, fun _ => e6.trans h0.2, fun _ => ?_,
          fun _ _ => sa1, fun _ _ => sa1, fun _ _ _ => sa1, fun _ hl => ?_⟩
        · show s1.ms ≠ _; rw [e7]; exact fun h => nomatch h
        · have := g.sar h0.1 h0.2 hl
          unfold SarOk at *; rw [e1, e3]; exact this
      split
      · unfold store memWrite
        split
        · exact ⟨_, rfl, key _ rfl rfl rfl rfl rfl rfl⟩
        · rename_i hb
          rcases sa with sa | sa
          · exact absurd sa hb
          · rw [if_pos (show memIx (_ : S).SA < _ from sa)]
            exact ⟨_, rfl, key _ rfl rfl rfl rfl rfl rfl⟩
      · exact ⟨_, rfl, key _ rfl rfl rfl rfl rfl rfl⟩
  · -- w1
    have key : ∀ s1 : S, s1.SAR = s.SAR → s1.bump = s.bump → s1.initMem = s.initMem →
        s1.initBump = s.initBump → s1.ms = s.ms → s1.updD = false → s1.ROAR = s.ROAR →
        MidS e s.ROAR s (accept e (ros s.ROAR) s1) := by
      intro s1 e1 e3 e5 e6 e7 e8 e9
      have q := accept_safe ho s1 e8 (e7.trans hm) (by rw [e6, e1]; exact g.aux)
        (by rw [e5, e6, e9]; intro h1 h2 h3
            have := g.sar h1 h2 h3
            unfold SarOk at *; rw [e1, e3]; exact this) (by rw [e9]; exact g.reach)
      rw [e9] at q
      exact ⟨q.held, q.im, q.ib, q.ms, q.cyc, q.upd, q.st, q.sar⟩
    unfold writeBack
    split
    · rename_i hu
      split
      · exact ⟨_, rfl, key _ rfl rfl rfl rfl rfl rfl rfl⟩
      · rename_i hb
        rcases g.upd hu with sa | sa
        · exact absurd sa hb
        · rw [if_pos sa]
          exact ⟨_, rfl, key _ rfl rfl rfl rfl rfl rfl rfl⟩
    · rename_i hu
      exact ⟨_, rfl, key _ rfl rfl rfl rfl rfl (by simpa using hu) rfl⟩
  · exact absurd hm g.ms

/-! ### The microinstruction -/

theorem iv_ib (e : Env) (w : Word) (x : X) : (ivStep e w x).s.initBump = x.s.initBump := by
  unfold ivStep; split <;> rfl

theorem early_ib (e : Env) (w : Word) (ex : Bool) (s : S) :
    (early e w ex s).s.initBump = s.initBump := by
  unfold early
  refine (congrArg (fun c => c.2.2) (ssE_req w _)).trans ?_
  refine (congrArg (fun c => c.2.2) (al_req e w _)).trans ?_
  rw [late_s]
  refine (congrArg (fun c => c.2.2) (ad_req w _)).trans ?_
  refine (congrArg (fun c => c.2.2) (dg_req w _)).trans ?_
  exact iv_ib e w _

theorem tr_ib {e : Env} {w : Word} {x x' : X} (h : trStep e w x = .ok x') :
    x'.s.initBump = x.s.initBump := by
  unfold trStep at h
  split at h
  all_goals first
    | (cases h; rfl)
    | (rcases protect_eq h with ⟨h, -⟩ | h <;> (cases h; rfl))
    | (split at h <;> (cases h; rfl))

theorem wm_aux (w : Word) (x : X) (h : x.s.initBump = false) :
    (wmStep w x).s.initBump = true → (wmStep w x).s.SAR.toNat < 2 ^ 18 := by
  have key : ∀ (a : B) (c : BitVec 2), ((((a &&& 0x3f).setWidth 32 ||| (c.setWidth 32 <<< 12) |||
      ((a &&& 0xc0).setWidth 32 <<< 8)) <<< 2 : W)).toNat < 2 ^ 18 := by decide +kernel
  unfold wmStep
  split
  case h_7 =>
    intro _
    have := key x.s.w (BitVec.ofNat 2 w.ce)
    have h2 : BitVec.ofNat 32 ((w.ce % 4) <<< 12) = (BitVec.ofNat 2 w.ce).setWidth 32 <<< 12 := by
      apply BitVec.eq_of_toNat_eq
      rw [BitVec.toNat_ofNat, BitVec.toNat_shiftLeft, BitVec.toNat_setWidth, BitVec.toNat_ofNat,
        Nat.shiftLeft_eq, Nat.shiftLeft_eq]
      rw [Nat.mod_eq_of_lt (show w.ce % 2 ^ 2 < 2 ^ 32 by omega)]
      rfl
    show ((_ : W) <<< 2).toNat < _
    rw [h2]; exact this
  all_goals (intro h1; exact absurd (h.symm.trans h1) (by decide))

theorem tr_sure {e : Env} {w : Word} {x x' : X} (h : trStep e w x = .ok x')
    (h0 : w.tr = 6 ∨ w.tr = 15 ∨ w.tr = 16 ∨
      w.tr = 8 ∧ (w.ce % 8 = 1 ∨ w.ce % 8 = 2 ∨ w.ce % 8 = 5)) : x'.s.initMem = true := by
  unfold trStep at h
  rcases h0 with h0 | h0 | h0 | ⟨h0, h1 | h1 | h1⟩ <;> rw [h0] at h
  all_goals first
    | (cases h; rfl)
    | (simp only [h1] at h; cases h; rfl)

theorem tr_off {e : Env} {w : Word} {x x' : X} (h : trStep e w x = .ok x')
    (h0 : w.tr = 10 ∨ w.tr = 11) : x'.s.initMem = true ∨ x'.nro = 0x1c2 := by
  have key : ∀ (a : Bool) (c : Prop) [Decidable c] (b : Bool), (b = true ↔ c) → ∀ n : Nat,
      (a || b) = true ∨ (if c then n else 0x1c2) = 0x1c2 := by
    intro a c _ b hb n
    by_cases hc : c
    · left; rw [hb.2 hc, Bool.or_true]
    · right; exact if_neg hc
  unfold trStep at h
  rcases h0 with h0 | h0 <;> rw [h0] at h
  · cases h
    exact key _ _ _ beq_iff_eq _
  · cases h
    exact key _ _ _ beq_iff_eq _

theorem ssL_keep {e : Env} {w : Word} {x x' : X} (h : ssLate e w x = .ok x')
    (h5 : w.ss ≠ 5) (h6 : w.ss ≠ 6) : x'.nro = x.nro := by
  unfold ssLate at h
  split at h
  all_goals first
    | contradiction
    | (cases h; rfl)
    | (split at h <;> first | (cases h; rfl) | cases h)

/-- A word of this kind leaves a request, or goes to the specification exception. -/
theorem exec_sure {e : Env} {w : Word} {ex : Bool} {s s' : S} (h : exec e w ex s = .ok s')
    (hw : sure w = true) (ho : w.tr = 10 ∨ w.tr = 11 → w.ss ≠ 5 ∧ w.ss ≠ 6) :
    s'.initMem = true ∨ s'.initBump = true ∨ s'.ROAR = 0x1c2 := by
  obtain ⟨x, y, h1, h2, rfl⟩ := exec_parts h
  have a1 := (fin_req w _).trans (up_req w (wmStep w (wsStep w y)))
  have b : (finish w (upStep w (wmStep w (wsStep w y)))).initMem = x.s.initMem :=
    (congrArg (fun c => c.2.1) a1).trans (((wm_req w (wsStep w y)).1).trans
      ((congrArg (fun c => c.2.1) (ws_req w y)).trans (congrArg (fun c => c.2.1) (ssL_req h2))))
  have b1 : (finish w (upStep w (wmStep w (wsStep w y)))).initBump =
      (wmStep w (wsStep w y)).s.initBump := congrArg (fun c => c.2.2) a1
  unfold sure at hw
  simp only [Bool.or_eq_true, Bool.and_eq_true, beq_iff_eq] at hw
  have key : (w.tr = 6 ∨ w.tr = 15 ∨ w.tr = 16 ∨
      w.tr = 8 ∧ (w.ce % 8 = 1 ∨ w.ce % 8 = 2 ∨ w.ce % 8 = 5)) ∨ (w.tr = 10 ∨ w.tr = 11) ∨
      w.wm = 8 := by
    rcases hw with (((((h | h) | h) | h) | h) | h) | h
    · exact .inl (.inl h)
    · exact .inl (.inr (.inl h))
    · exact .inl (.inr (.inr (.inl h)))
    · exact .inr (.inl (.inl h))
    · exact .inr (.inl (.inr h))
    · exact .inl (.inr (.inr (.inr ⟨h.1, by
        rcases h.2 with (h | h) | h
        · exact .inl h
        · exact .inr (.inl h)
        · exact .inr (.inr h)⟩)))
    · exact .inr (.inr h)
  rcases key with k | k | k
  · left; rw [b]; exact tr_sure h1 k
  · rcases tr_off h1 k with q | q
    · left; rw [b]; exact q
    · right; right
      obtain ⟨k5, k6⟩ := ho k
      rw [fin_nro, up_nro, wm_nro, ws_nro, ssL_keep h2 k5 k6, q]
  · right; left
    rw [b1]
    unfold wmStep; rw [k]; rfl

theorem exec_aux {e : Env} {w : Word} {ex : Bool} {s s' : S} (h : exec e w ex s = .ok s')
    (hb : s.initBump = false) : s'.initBump = true → s'.SAR.toNat < 2 ^ 18 := by
  obtain ⟨x, y, h1, h2, rfl⟩ := exec_parts h
  have a1 := (fin_req w _).trans (up_req w (wmStep w (wsStep w y)))
  have c1 : (finish w (upStep w (wmStep w (wsStep w y)))).SAR = (wmStep w (wsStep w y)).s.SAR :=
    congrArg (fun c => c.1) a1
  have c2 : (finish w (upStep w (wmStep w (wsStep w y)))).initBump =
    (wmStep w (wsStep w y)).s.initBump := congrArg (fun c => c.2.2) a1
  have c3 : (wsStep w y).s.initBump = false :=
    ((congrArg (fun c => c.2.2) (ws_req w y)).trans (congrArg (fun c => c.2.2) (ssL_req h2))).trans
      ((tr_ib h1).trans ((early_ib e w ex s).trans hb))
  rw [c1, c2]; exact wm_aux w _ c3

/-- A word which is not one of the rash ones stays inside the storage keys. -/
theorem exec_in {e : Env} {w : Word} {ex : Bool} {s : S} (hst : storeTr w = true → keyIx s < 256)
    (hiv : storeTr w = true → w.iv ≠ 4 ∧ w.iv ≠ 7) (h31 : w.ss ≠ 31)
    (h8 : w.tr = 8 → w.ce % 8 ≠ 0 ∧ w.ce % 8 ≠ 4)
    (h30 : w.ss = 30 → keyIx s < 256 ∧ w.tr = 0 ∧ w.iv = 0) :
    exec e w ex s ≠ .oob := by
  unfold exec
  split
  · exact fun h => nomatch h
  · show (trStep e w (early e w ex s)).bind _ ≠ _
    have hk : storeTr w = true → keyIx (early e w ex s).s < 256 := by
      intro h
      have q : (early e w ex s).s.SAR = s.SAR :=
        congrArg (fun c => c.1) (early_req e w ex s (hiv h).1 (hiv h).2)
      have := hst h
      unfold keyIx at *; rw [q]; exact this
    have hpr : ∀ (y : X) (k : X → X), y.s.SAR = (early e w ex s).s.SAR → storeTr w = true →
        protect y k ≠ .oob := by
      intro y k hy hw h
      have h1 : keyIx y.s < 256 := by
        have := hk hw
        unfold keyIx at *; rw [hy]; exact this
      unfold protect at h
      split at h
      · cases h
      · split at h <;> cases h
    have ht : trStep e w (early e w ex s) ≠ .oob := by
      intro h
      unfold trStep at h
      split at h <;> rename_i hw
      all_goals first
        | cases h
        | exact hpr _ _ rfl (by unfold storeTr; rw [hw]; rfl) h
        | exact hpr { (early e w ex s) with s := { (early e w ex s).s with R := (early e w ex s).s.aob } } _ rfl (by unfold storeTr; rw [hw]; rfl) h
        | (split at h <;> cases h)
    cases h1 : trStep e w (early e w ex s) with
    | oob => exact absurd h1 ht
    | chan => exact fun h => nomatch h
    | ok x =>
      show (ssLate e w x).bind _ ≠ _
      have hs : ssLate e w x ≠ .oob := by
        intro h
        have h0 := h
        unfold ssLate at h
        split at h <;> rename_i hw
        all_goals first
          | cases h
          | contradiction
          | skip
        all_goals
          obtain ⟨k1, k2, k3⟩ := h30 hw
          have q1 : x = early e w ex s := by unfold trStep at h1; rw [k2] at h1; cases h1; rfl
          have q2 : (early e w ex s).s.SAR = s.SAR :=
            congrArg (fun c => c.1) (early_req e w ex s (by rw [k3]; decide) (by rw [k3]; decide))
          have q3 : keyIx x.s < 256 := by unfold keyIx at *; rw [q1, q2]; exact k1
          rw [if_pos q3] at h; cases h
      cases h2 : ssLate e w x with
      | oob => exact absurd h2 hs
      | chan => exact fun h => nomatch h
      | ok y => exact fun h => nomatch h

/-! ### One cycle, and runs -/

/-- What a cycle is asked for: the word is not one of those which use the address register
unchecked, and the word at `327` does not take the exit of the condition code 3. -/
def S.mild (s : S) : Prop := rash s.ROAR = false ∧ (s.ROAR = 0x327 → s.w &&& 3 ≠ 3)

theorem mem_w {e : Env} {w : Word} {s : S} {p : Held} (h : memCycle e w s = .ok p) :
    p.2.w = s.w := by
  have hacc : ∀ s1 : S, s1.w = s.w → p = accept e w s1 → p.2.w = s.w := by
    rintro s1 h1 rfl
    unfold accept
    split
    · split <;> exact h1
    · exact h1
  have hwb : ∀ s0 s1 : S, writeBack e s0 = .ok s1 → s1.w = s0.w := by
    intro s0 s1 h
    unfold writeBack at h
    split at h
    · split at h
      · cases h; rfl
      · split at h
        · cases h; rfl
        · cases h
    · cases h; rfl
  unfold memCycle at h
  split at h
  · cases h; rfl
  · split at h
    · unfold fetch memRead at h
      split at h
      · cases h; rfl
      · split at h
        · cases h; rfl
        · cases h
    · cases h; rfl
  · split at h
    · cases h; rfl
    · split at h
      · unfold store memWrite at h
        split at h
        · cases h; rfl
        · split at h
          · cases h; rfl
          · cases h
      · cases h; rfl
  · cases h1 : writeBack e s with
    | oob => rw [h1] at h; cases h
    | chan => rw [h1] at h; cases h
    | ok s1 => rw [h1] at h; cases h; exact hacc s1 (hwb _ _ h1) rfl
  · unfold memRead at h
    split at h
    · change (writeBack e _).bind _ = _ at h
      cases h1 : writeBack e { s with SDR := s.mem (memIx s.SA), ms := .w1 } with
      | oob => rw [h1] at h; cases h
      | chan => rw [h1] at h; cases h
      | ok s1 =>
        rw [h1] at h; cases h
        have q := hwb _ _ h1
        exact hacc s1 q rfl
    · cases h

theorem exit_327 {e : Env} {ex : Bool} {s s' : S} (h : exec e (ros 0x327) ex s = .ok s')
    (hw : s.w &&& 3 ≠ 3) : s'.ROAR ≠ 0xc3f := by
  have key : ∀ a : B, a &&& 3 ≠ 3 →
      3132 ||| 2 * (a &&& 2#8 != 0#8).toNat + (a &&& 1#8 != 0#8).toNat ≠ 0xc3f := by decide +kernel
  rw [x327] at h
  cases h
  exact key s.w hw

/-- One machine cycle stays inside the arrays. -/
theorem safe_cycle {e : Env} {t : Bool} {s : S} (ho : EnvOk e) (g : Safe e s) (hm : s.mild) :
    cycle e t s ≠ .oob ∧ ∀ s', cycle e t s = .ok s' → Safe e s' := by
  have g0 : Safe e (tickStep t s) := ⟨g.ms, g.cyc, g.upd, g.aux, g.sar, g.reach⟩
  obtain ⟨p, h1, m⟩ := mem_safe ho g0
  change memCycle e (ros s.ROAR) _ = _ at h1
  have hw : p.2.w = (tickStep t s).w := mem_w h1
  change p.2.w = s.w at hw
  unfold cycle
  rw [ho.ros, h1]
  show (if p.1 then Out.ok p.2 else _) ≠ _ ∧ ∀ s', (if p.1 then Out.ok p.2 else _) = _ → _
  cases hp : p.1 with
  | true => exact ⟨(fun h => nomatch h), fun s' h => by cases h; exact m.held hp⟩
  | false =>
    rw [if_neg (by decide)]
    cases hc : needsChan (ros s.ROAR) with
    | true =>
      have : exec e (ros s.ROAR) (exc (tickStep t s)) p.2 = .chan := by unfold exec; rw [if_pos hc]
      rw [this]
      exact ⟨(fun h => nomatch h), fun s' h => nomatch h⟩
    | false =>
      obtain ⟨w1, w2⟩ := (every_word g.reach).2 hc
      obtain ⟨w3, w4⟩ := wordOk_iff w1
      obtain ⟨b1, b2, b3, b4⟩ := bound_word g.reach hc
      obtain ⟨b5, b6, b7⟩ := b1 hm.1
      refine ⟨exec_in (fun h => (m.sar hp (b5 h)).key ho) (fun h => ⟨(w3 h).1, (w3 h).2.1⟩) b6 w4
        (fun h => ⟨(m.sar hp (b7 h).1).key ho, (b7 h).2⟩), fun s' h3 => ?_⟩
      obtain ⟨c1, c2, c3, c4⟩ := exec_mem h3
      have sa : SaOk e p.2 → SaOk e s' := by unfold SaOk; rw [c2, c3]; exact id
      have hn := exec_next h3
      have b8 := b4 _ _ hn
      refine ⟨?_, ?_, ?_, exec_aux h3 (m.ib hp), ?_, (w2 _ _ hn).1⟩
      · rw [c4]; exact m.ms hp
      · rw [c4]; exact fun h => sa (m.cyc hp h)
      · intro h
        rcases exec_data h3 w4 w3 with ⟨-, d⟩ | ⟨-, -, -, d, -⟩
        · rw [d] at h; exact sa (m.upd hp h)
        · exact sa (m.st hp d (b5 d))
      · intro q1 q2 q3
        have hs : sure (ros s.ROAR) = false := by
          cases hs : sure (ros s.ROAR) with
          | false => rfl
          | true =>
            rcases exec_sure h3 hs b3 with r | r | r
            · rw [q1] at r; cases r
            · rw [q2] at r; cases r
            · rw [r, loose_1c.2] at q3; cases q3
        have hn2 : ¬ ((ros s.ROAR).tr = 9 ∨ (ros s.ROAR).iv = 4 ∨ (ros s.ROAR).iv = 7) := by
          intro r; rw [b8.1 r] at q3; cases q3
        have hl : loose s.ROAR = false := by
          cases hl : loose s.ROAR with
          | false => rfl
          | true =>
            rcases b8.2 hl hs with r | ⟨r1, r2⟩
            · rw [r] at q3; cases q3
            · rw [r1] at h3
              exact absurd r2 (exit_327 h3 (by rw [hw]; exact hm.2 r1))
        have hs1 : (ros s.ROAR).tr ≠ 10 ∧ (ros s.ROAR).tr ≠ 11 := by
          unfold sure at hs
          simp only [Bool.or_eq_false_iff, beq_eq_false_iff_ne] at hs
          exact ⟨hs.1.1.1.2, hs.1.1.2⟩
        have ok := m.sar hp hl
        rcases exec_sar h3 (fun h => hn2 (.inr (.inl h))) (fun h => hn2 (.inr (.inr h)))
          (fun h => hn2 (.inl h)) hs1.1 hs1.2 with r | r | r
        · unfold SarOk at *; rw [c3, r]; exact ok
        · rw [q1] at r; cases r
        · rw [q2] at r; cases r

theorem safe_run {e : Env} (ho : EnvOk e) : ∀ (n : Nat) (tick : Nat → Bool) (s : S), Safe e s →
    (∀ k < n, ∀ s1, run e tick k s = .ok s1 → s1.mild) →
    run e tick n s ≠ .oob ∧ ∀ s', run e tick n s = .ok s' → Safe e s'
  | 0, _, _, g, _ => ⟨(fun h => nomatch h), fun _ h => by cases h; exact g⟩
  | n + 1, tick, s, g, hm => by
    obtain ⟨k1, k2⟩ := safe_cycle (t := tick 0) ho g (hm 0 (Nat.succ_pos n) s rfl)
    show (cycle e (tick 0) s).bind _ ≠ _ ∧ ∀ s', (cycle e (tick 0) s).bind _ = _ → _
    cases h1 : cycle e (tick 0) s with
    | oob => exact absurd h1 k1
    | chan => exact ⟨(fun h => nomatch h), fun s' h => nomatch h⟩
    | ok s1 =>
      refine safe_run ho n _ s1 (k2 s1 h1) fun k hk s2 h2 => hm (k + 1) (Nat.succ_lt_succ hk) s2 ?_
      show (cycle e (tick 0) s).bind _ = _
      rw [h1]; exact h2

end Verif.Cpu50
