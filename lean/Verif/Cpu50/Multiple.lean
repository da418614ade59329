import Verif.Cpu50.Words10
import Verif.Cpu50.Irq
import Verif.Cpu50.Si
import Verif.Cpu50.ExecuteProps

/-!
# Model 2050: LOAD MULTIPLE and STORE MULTIPLE

The loop of `/repo/src/model2050/ros.txt` (words 922, 902, 94c, 954, 929, 92b, 92d and 92f) which
goes from the first register to the third one, 15 being followed by 0.
-/

namespace Verif

namespace S360

/-! ### Specification -/

/-- Number of registers from `r1` to `r3`, register 0 following 15. -/
def span (r1 r3 : BitVec 4) : Nat := (r3 - r1).toNat + 1

/-- LOAD MULTIPLE: the registers from `r1` to `r3` come from consecutive words at `x`. -/
def Arch.loadMultiple (a : Arch) (r1 r3 : BitVec 4) (x : Nat) : Arch :=
  { a with gr := fun r => if (r - r1).toNat < span r1 r3 then a.mem (x / 4 + (r - r1).toNat) else a.gr r }

/-- STORE MULTIPLE: the registers from `r1` to `r3` go to consecutive words at `x`. -/
def Arch.storeMultiple (a : Arch) (r1 r3 : BitVec 4) (x : Nat) : Arch :=
  { a with mem := fun j => if x / 4 ≤ j ∧ j < x / 4 + span r1 r3 then a.gr (r1 + BitVec.ofNat 4 (j - x / 4))
                           else a.mem j }

end S360

namespace Cpu50

open S360

/-! ### The specification, register by register -/

theorem span_step {r r3 : BitVec 4} (h : r ≠ r3) : span r r3 = span (r + 1) r3 + 1 := by
  revert r r3; decide +kernel

theorem span_last (r : BitVec 4) : span r r = 1 := by revert r; decide +kernel

theorem pos_step (q r : BitVec 4) (h : q ≠ r) : (q - r).toNat = (q - (r + 1)).toNat + 1 := by
  revert q r; decide +kernel

theorem pos_self (r r3 : BitVec 4) (h : r ≠ r3) : ¬ (r - (r + 1)).toNat < span (r + 1) r3 := by
  revert r r3; decide +kernel

theorem pos_one (q r : BitVec 4) : (q - r).toNat < 1 ↔ q = r := by revert q r; decide +kernel

theorem load_last (a : Arch) (r : BitVec 4) (x : Nat) : a.loadMultiple r r x = a.put r (a.mem (x / 4)) := by
  unfold Arch.loadMultiple Arch.put
  congr 1
  funext q
  rw [span_last]
  by_cases h : q = r
  · rw [if_pos ((pos_one q r).2 h), if_pos h, h]; simp
  · rw [if_neg (fun h1 => h ((pos_one q r).1 h1)), if_neg h]

theorem load_step (a : Arch) {r r3 : BitVec 4} (x : Nat) (h : r ≠ r3) :
    a.loadMultiple r r3 x = (a.put r (a.mem (x / 4))).loadMultiple (r + 1) r3 (x + 4) := by
  unfold Arch.loadMultiple Arch.put
  congr 1
  funext q
  rw [span_step h]
  by_cases hq : q = r
  · subst hq
    rw [if_pos (by simp), if_neg (pos_self q r3 h)]
    dsimp only
    rw [if_pos rfl]; simp
  · rw [pos_step q r hq]
    have hd : (x + 4) / 4 + (q - (r + 1)).toNat = x / 4 + ((q - (r + 1)).toNat + 1) := by omega
    by_cases h1 : (q - (r + 1)).toNat < span (r + 1) r3
    · rw [if_pos (by omega), if_pos h1, hd]
    · rw [if_neg (by omega), if_neg h1]
      dsimp only
      rw [if_neg hq]

theorem store_last (a : Arch) (r : BitVec 4) (x : Nat) : a.storeMultiple r r x = a.store x (a.gr r) := by
  unfold Arch.storeMultiple Arch.store
  congr 1
  funext j
  rw [span_last]
  by_cases h : j = x / 4
  · rw [if_pos (by omega), if_pos h, h]; simp
  · rw [if_neg (by omega), if_neg h]

theorem store_step (a : Arch) {r r3 : BitVec 4} (x : Nat) (h : r ≠ r3) :
    a.storeMultiple r r3 x = (a.store x (a.gr r)).storeMultiple (r + 1) r3 (x + 4) := by
  unfold Arch.storeMultiple Arch.store
  congr 1
  funext j
  rw [span_step h]
  have hd : (x + 4) / 4 = x / 4 + 1 := by omega
  rw [hd]
  have h0 : 1 ≤ span (r + 1) r3 := by unfold span; omega
  by_cases h1 : j = x / 4
  · rw [if_pos (by omega), if_neg (by omega)]
    dsimp only
    rw [if_pos h1, h1]; simp
  · by_cases h2 : x / 4 + 1 ≤ j ∧ j < x / 4 + 1 + span (r + 1) r3
    · rw [if_pos (by omega), if_pos h2]
      have h3 : j - x / 4 = (j - (x / 4 + 1)) + 1 := by omega
      rw [h3, BitVec.ofNat_add, BitVec.add_assoc, BitVec.add_comm 1]
      rfl
    · rw [if_neg (by omega), if_neg h2]
      dsimp only
      rw [if_neg h1]

/-! ### The loop -/

/-- Before word 954: the next word at `x` is asked for, for register `r`; `r3` is the last one. -/
structure Mult (e : Env) (tk : Bool) (a : Arch) (st : Bool) (r r3 : BitVec 4) (x : W) (s : S) : Prop where
  ask : Asks e tk s
  ud : s.updD = false
  arch : archOf s = a
  f : s.F.toNat < 16
  odd : a.ia.toNat % 4 = 2 → s.REFETCH = false → s.LS 30 = a.mem (a.ia.toNat / 4) ∧
    s.SYLS1 = (s.LS 30 &&& 0xc000#32 == 0#32)
  fn : s.FN = 3#2
  md : s.MD = r
  sar : s.SAR = x
  r : s.R &&& 16777215#32 = x
  mvf : s.mvf = 3#3
  m : byteOf s.M s.MB &&& 240#8 = r3.setWidth 8 <<< 4
  s3 : s.St.s3 = st
  roar : s.ROAR = 0x954

theorem Mult.acc {e : Env} {tk st : Bool} {a : Arch} {r r3 : BitVec 4} {x : W} {s : S}
    (h : Mult e tk a st r r3 x s) {t : Bool} (hc : Calm e tk (acc t s)) : AtEnd e tk a (acc t s) := by
  refine ⟨hc, h.arch, h.f, rfl, ?_⟩
  intro h1 h2
  refine h.odd h1 ?_
  simp only [Cpu50.acc, h.ud, Bool.false_and, Bool.or_false] at h2
  exact h2

/-- The comparison with the last register. -/
theorem last_test (r r3 : BitVec 4) (f b : B) (hf : f.toNat < 16) (hb : b &&& 240#8 = r3.setWidth 8 <<< 4) :
    ((mvfL 3#3 (r.setWidth 8 <<< 4 ||| f) b ||| (r.setWidth 8 <<< 4 ||| f) &&& 15#8) &&& 240#8 == 0#8) =
      decide (r = r3) := by
  have h : ∀ (f b : B), f.toNat < 16 → ∀ r : BitVec 4,
      (mvfL 3#3 (r.setWidth 8 <<< 4 ||| f) b ||| (r.setWidth 8 <<< 4 ||| f) &&& 15#8) &&& 240#8 =
        (r.setWidth 8 <<< 4) ^^^ (b &&& 240#8) := by
    intro f b hf r
    have hb : (r.setWidth 8 <<< 4 ||| f) &&& 240#8 = r.setWidth 8 <<< 4 := by
      have h1 : ∀ r : BitVec 4, (r.setWidth 8 <<< 4 : B) &&& 240#8 = r.setWidth 8 <<< 4 := by decide
      have h2 : f &&& 240#8 = 0#8 := by revert f; decide +kernel
      have h3 : (r.setWidth 8 <<< 4 ||| f) &&& 240#8 =
          (r.setWidth 8 <<< 4 : B) &&& 240#8 ||| f &&& 240#8 := by
        apply BitVec.eq_of_getLsbD_eq; intro i hi; simp [Bool.and_or_distrib_right]
      rw [h3, h1, h2]; simp
    generalize (r.setWidth 8 <<< 4 ||| f) = u at *
    rw [← hb]
    apply BitVec.eq_of_getLsbD_eq; intro i hi
    interval_cases i <;> simp [mvfL, Bool.xor_comm]
  rw [h f b hf r, hb]
  clear hb hf h
  revert r r3; decide +kernel

theorem next_addr {R x : W} (h : R &&& 16777215#32 = x) (hl : x.toNat + 4 < 0x1000000) :
    (4#32 + R &&& 16777215#32) = x + 4#32 := by
  subst h
  apply BitVec.eq_of_toNat_eq
  have h1 : ∀ v : W, (v &&& 16777215#32).toNat = v.toNat % 16777216 := fun v => by
    rw [BitVec.toNat_and]; exact Nat.and_two_pow_sub_one_eq_mod v.toNat 24
  rw [h1] at hl
  rw [h1, BitVec.toNat_add, BitVec.toNat_add, h1]
  have : (4#32).toNat = 4 := rfl
  omega

/-- Words 954, 929, 92d and 92f: LOAD MULTIPLE. -/
theorem lm_loop {e : Env} {tk : Bool} (ho : EnvOk e) (r3 : BitVec 4) : ∀ (n : Nat) (a : Arch) (r : BitVec 4)
    (x : W) (s : S), span r r3 = n → Mult e tk a false r r3 x s → x.toNat % 4 = 0 →
    x.toNat + 4 * n ≤ 4 * words e → InStore e a → Ev e tk (Bd e tk (a.loadMultiple r r3 x.toNat)) s := by
  intro n
  induction n with
  | zero => intro a r x s hn; unfold span at hn; omega
  | succ n ih =>
  intro a r x s hn h hx hl hi
  have hlim := ho.lim
  refine Ev.acc (n := 0x954) ho h.ask h.roar (by rw [w954]; decide) (fun t => x954 e _ _) fun t ht hc => ?_
  have ae := h.acc hc
  have hro : (2344 ||| 2 * (acc t s).St.s3.toNat + 1) = 0x929 := by
    show (2344 ||| 2 * s.St.s3.toNat + 1) = _
    rw [h.s3]; rfl
  have hsd : sdrAt (acc t s) = a.mem (x.toNat / 4) := by
    rw [sdr_acc ho h.ask t, h.sar, ← h.arch]; rfl
  have hw := last_test s.MD r3 s.F (byteOf s.M s.MB) h.f h.m
  rw [← h.mvf] at hw
  refine Ev.wait (n := 0x929) ho (hc.congr (by unfold memPart; rfl)) hro (by rw [w929]; decide)
    (by rw [w929]; decide) (fun tu sa ex => x929 e _ _) fun tu sa ex hex hc2 => ?_
  refine Ev.bind (P := fun s' => AtEnd e tk (a.put r (a.mem (x.toNat / 4))) s' ∧ s'.FN = 3#2 ∧ s'.MD = r ∧
    s'.R = s.R ∧ s'.mvf = 3#3 ∧ s'.M = s.M ∧ s'.MB = s.MB ∧ s'.St.s3 = false ∧
    s'.ROAR = 2348 ||| 2 * (decide (r = r3)).toNat + 1) (.now ?_) ?_
  · refine ⟨(ae.upd (hc2.congr (by unfold memPart; rfl)) ?_ rfl rfl rfl rfl rfl
      (by show lsPut s.LS (s.FN ++ s.MD) _ 30 = _; rw [h.fn]; exact ls30_put ..) rfl), h.fn, h.md,
      rfl, h.mvf, rfl, rfl, h.s3, ?_⟩
    · refine arch_put (s := acc t s) h.arch h.fn h.md ?_ rfl rfl rfl rfl rfl rfl rfl rfl
      rw [← hsd]; rfl
    · rw [← h.md, ← hw]; rfl
  rintro s1 ⟨ae1, fn1, md1, r1, mvf1, m1, mb1, s31, ro1⟩
  by_cases hr : r = r3
  · subst hr
    rw [decide_eq_true rfl] at ro1
    refine Ev.plain (n := 0x92f) ho ae1.calm ro1 (by rw [w92f]; decide) (fun t => x92f e _ _)
      (fun t => by unfold memPart; rfl) fun t ht hc3 => ?_
    rw [load_last]
    exact end_a (n := 0x197) ho (ae1.upd hc3 ae1.arch rfl rfl rfl rfl rfl rfl rfl) (hi.same rfl) rfl
      (by rw [w197, w144])
  · rw [decide_eq_false hr] at ro1
    rw [load_step a _ hr]
    have hsp := span_step hr
    have h0 : 1 ≤ span (r + 1) r3 := by unfold span; omega
    have hna : (4#32 + s1.R &&& 16777215#32) = x + 4#32 := by
      rw [r1]; exact next_addr h.r (by omega)
    have hxn : (x + 4#32).toNat = x.toNat + 4 := by
      rw [BitVec.toNat_add]
      have : (4#32).toNat = 4 := rfl
      omega
    rw [← hxn]
    refine Ev.wait (n := 0x92d) ho ae1.calm ro1 (by rw [w92d]; decide) (by rw [w92d]; decide)
      (fun tu sa ex => x92d e _ _) fun tu sa ex hex hc3 => ?_
    refine ih _ _ _ _ (by omega) ⟨⟨rfl, ae1.calm.ib, rfl, ?_, ?_, hc3.qt⟩, ae1.calm.ud, ae1.arch, ae1.f, ae1.odd, fn1, ?_, hna,
      hna, mvf1, ?_, s31, rfl⟩ (by omega) (by omega) (hi.same rfl)
    · have := ho.top
      show (4#32 + s1.R &&& 16777215#32).toNat ≤ _
      rw [hna, hxn]; omega
    · intro h3; rw [show _ = s1.updD from rfl, ae1.calm.ud] at h3; cases h3
    · show s1.MD + 1#4 = _
      rw [md1]; rfl
    · show byteOf s1.M s1.MB &&& 240#8 = _
      rw [m1, mb1]; exact h.m

/-- Words 954, 92b, 92d and 92f: STORE MULTIPLE. -/
theorem stm_loop {e : Env} {tk : Bool} (ho : EnvOk e) (r3 : BitVec 4) : ∀ (n : Nat) (a : Arch) (r : BitVec 4)
    (x : W) (s : S), span r r3 = n → Mult e tk a true r r3 x s → x.toNat % 4 = 0 →
    x.toNat + 4 * n ≤ 4 * words e → (∀ k, k < n → a.permits (x + BitVec.ofNat 32 (4 * k))) →
    InStore e a → Ev e tk (Bd e tk (a.storeMultiple r r3 x.toNat)) s := by
  intro n
  induction n with
  | zero => intro a r x s hn; unfold span at hn; omega
  | succ n ih =>
  intro a r x s hn h hx hl hk hi
  have hlim := ho.lim
  refine Ev.acc (n := 0x954) ho h.ask h.roar (by rw [w954]; decide) (fun t => x954 e _ _) fun t ht hc => ?_
  have ae := h.acc hc
  have hro : (2344 ||| 2 * (acc t s).St.s3.toNat + 1) = 0x92b := by
    show (2344 ||| 2 * s.St.s3.toNat + 1) = _
    rw [h.s3]; rfl
  have hkey : Permit s := permit_of h.arch h.sar (by have := hk 0 (by omega); simpa using this) (by omega)
  have hsa : memIx (acc t s).SA = x.toNat / 4 := by
    show memIx (s.SAR &&& 0x3ffff) = _
    rw [memIx_and, h.sar, Nat.mod_eq_of_lt (by omega)]
  have hw := last_test s.MD r3 s.F (byteOf s.M s.MB) h.f h.m
  rw [← h.mvf] at hw
  have hv : s.LS (s.FN ++ s.MD) = a.gr r := by
    rw [h.fn, h.md, gr_of h.arch]
  refine Ev.wait1 (n := 0x92b) ho (hc.congr (by unfold memPart; rfl)) rfl rfl hro (by rw [w92b]; decide)
    (by rw [w92b]; decide) (fun tu ex => x92b_k e ex _ (hkey.congr rfl rfl rfl)) fun tu ex hex hc2 => ?_
  refine Ev.bind (P := fun s' => s'.initMem = false ∧ s'.initBump = false ∧ s'.updD = true ∧ s'.ms = .w1 ∧
    s'.bump = false ∧ memIx s'.SA < words e ∧ (tk = false → exc s' = false) ∧
    { archOf s' with mem := memUpd s' } = a.store x.toNat (a.gr r) ∧ s'.F.toNat < 16 ∧ s'.IVA = false ∧
    (a.ia.toNat % 4 = 2 → s'.REFETCH = false → s'.LS 30 = s'.mem (a.ia.toNat / 4) ∧
      s'.SYLS1 = (s'.LS 30 &&& 0xc000#32 == 0#32)) ∧ s'.FN = 3#2 ∧ s'.MD = r ∧
    s'.R = s.R ∧ s'.mvf = 3#3 ∧ s'.M = s.M ∧ s'.MB = s.MB ∧ s'.St.s3 = true ∧
    s'.ROAR = 2348 ||| 2 * (decide (r = r3)).toNat + 1) (.now ?_) ?_
  · refine ⟨hc.im, hc.ib, rfl, rfl, rfl, ?_, fun h1 => ?_, ?_, h.f, rfl, ?_, h.fn, h.md, rfl, h.mvf, rfl, rfl,
      h.s3, ?_⟩
    · show memIx (acc t s).SA < _
      rw [hsa]; omega
    · rw [← hc2.qt h1]; rfl
    · rw [← hv, ← h.arch]
      exact congrArg (fun n => ({ archOf s with mem := fun i => if i = n then s.LS (s.FN ++ s.MD) else s.mem i } :
        Arch)) hsa
    · intro h1 h2
      have h3 := ae.odd h1 h2
      rw [show a.mem = s.mem by rw [← h.arch]; rfl] at h3
      exact h3
    · rw [← h.md, ← hw]; rfl
  rintro s1 ⟨im1, ib1, ud1, ms1, bu1, rg1, qt1, ar1, f1, iv1, od1, fn1, md1, r1, mvf1, m1, mb1, s31, ro1⟩
  by_cases hr : r = r3
  · subst hr
    rw [decide_eq_true rfl] at ro1
    refine Ev.wb (n := 0x92f) ho im1 ib1 ud1 ms1 bu1 rg1 ro1 (fun t => x92f e _ _) fun t5 ht5 => ?_
    rw [store_last]
    exact end_a (n := 0x197) ho (wb_end (a := a.store x.toNat (a.gr r)) im1 ib1 ms1 qt1 ar1 f1 od1 iv1 ht5
      (by unfold memPart; rfl) ar1 rfl rfl rfl rfl rfl rfl rfl) (hi.same rfl) rfl (by rw [w197, w144])
  · rw [decide_eq_false hr] at ro1
    rw [store_step a _ hr]
    have hsp := span_step hr
    have h0 : 1 ≤ span (r + 1) r3 := by unfold span; omega
    have hna : (4#32 + s1.R &&& 16777215#32) = x + 4#32 := by
      rw [r1]; exact next_addr h.r (by omega)
    have hxn : (x + 4#32).toNat = x.toNat + 4 := by
      rw [BitVec.toNat_add]
      have : (4#32).toNat = 4 := rfl
      omega
    rw [← hxn]
    refine Ev.wb (n := 0x92d) ho im1 ib1 ud1 ms1 bu1 rg1 ro1 (fun t => x92d e _ _) fun t5 ht5 => ?_
    have ae1 : AtEnd e tk (a.store x.toNat (a.gr r)) { s1 with
        timUp := s1.timUp || (t5 && !s1.man), updD := false, mem := memUpd s1,
        REFETCH := s1.REFETCH || decide (s1.SA >>> 2 = s1.IA >>> 2), SA := s1.SAR &&& 0x3ffff } :=
      wb_end im1 ib1 ms1 qt1 ar1 f1 od1 iv1 ht5 (by unfold memPart; rfl) ar1 rfl rfl rfl rfl rfl rfl rfl
    refine ih _ _ _ _ (by omega) ⟨⟨rfl, ib1, ms1, ?_, (fun h3 => nomatch h3), ae1.calm.qt⟩, rfl, ae1.arch, f1,
      ae1.odd, fn1, ?_, hna, hna, mvf1, ?_, s31, rfl⟩ (by omega) (by omega) ?_ (hi.same rfl)
    · have := ho.top
      show (4#32 + s1.R &&& 16777215#32).toNat ≤ _
      rw [hna, hxn]; omega
    · show s1.MD + 1#4 = _
      rw [md1]; rfl
    · show byteOf s1.M s1.MB &&& 240#8 = _
      rw [m1, mb1]; exact h.m
    · intro k hk'
      have h4 := hk (k + 1) (by omega)
      have h5 : x + BitVec.ofNat 32 (4 * (k + 1)) = x + 4#32 + BitVec.ofNat 32 (4 * k) := by
        rw [show 4 * (k + 1) = 4 + 4 * k by omega, BitVec.ofNat_add, BitVec.add_assoc]
      rw [h5] at h4
      exact h4

/-! ### Start of the instruction -/

theorem byte_last {m : W} {i : BitVec 16} (h : m.extractLsb' 16 16 = i) :
    byteOf (m <<< 4) (0#2 + 1#2) &&& 240#8 = (dig2 i).setWidth 8 <<< 4 := by
  subst h
  apply BitVec.eq_of_getLsbD_eq; intro i hi
  interval_cases i <;> simp [byteOf, dig2]

/-- Words 922 or 902, and 94c. -/
theorem to_mult {e : Env} {tk : Bool} {a : Arch} {i : BitVec 16} {x : W} {s : S} (ho : EnvOk e)
    (h : Op9 e tk a i x s) (st : Bool) (hop : (opOf i).toNat = if st then 0x90 else 0x98)
    (hx : x.toNat % 4 = 0) (hl : x.toNat + 4 ≤ 4 * words e) :
    Ev e tk (Mult e tk a st (dig1 i) (dig2 i) x) s := by
  refine Ev.bind (P := fun s' => AtEnd e tk a s' ∧ s'.FN = 3#2 ∧ s'.MD = dig1 i ∧ s'.R = s.R ∧
    s'.M = s.M <<< 4 ∧ s'.MB = 0#2 ∧ s'.St.s3 = st ∧ s'.ROAR = 0x94c) ?_ ?_
  · have hro := h.roar
    rw [hop] at hro
    cases st
    · refine Ev.plain (n := 0x922) ho h.ae.calm hro (by rw [w922]; decide) (fun t => x922 e _ _)
        (fun t => by unfold memPart; rfl) fun t ht hc => .now ?_
      exact ⟨h.ae.updF hc h.ae.arch rfl rfl (hi_lt _) rfl rfl rfl rfl, h.fn, h.md, rfl, rfl, rfl, rfl, rfl⟩
    · refine Ev.plain (n := 0x902) ho h.ae.calm hro (by rw [w902]; decide) (fun t => x902 e _ _)
        (fun t => by unfold memPart; rfl) fun t ht hc => .now ?_
      exact ⟨h.ae.updF hc h.ae.arch rfl rfl (hi_lt _) rfl rfl rfl rfl, h.fn, h.md, rfl, rfl, rfl, rfl, rfl⟩
  rintro s1 ⟨ae, fn, md, hr, hm, hmb, s3, ro⟩
  have hrx : s1.R &&& 16777215#32 = x := by rw [hr]; exact h.r
  have h3 : s1.R &&& 16777215#32 &&& 3#32 = 0#32 := by rw [hrx]; exact (and3_mod x).2 hx
  refine Ev.wait (n := 0x94c) ho ae.calm ro (by rw [w94c]; decide) (by rw [w94c]; decide)
    (fun tu sa ex => x94c e _ _) fun tu sa ex hex hc => .now ?_
  refine ⟨⟨?_, ae.calm.ib, rfl, ?_, ?_, hc.qt⟩, ae.calm.ud, ae.arch, ae.f, ae.odd, fn, md, hrx, hrx, rfl, ?_, s3,
    if_pos h3⟩
  · show (s1.initMem || s1.R &&& 16777215#32 &&& 3#32 == 0#32) = true
    rw [h3]; simp
  · have := ho.top
    show (s1.R &&& 16777215#32).toNat ≤ _
    rw [hrx]; omega
  · intro h4; rw [show _ = s1.updD from rfl, ae.calm.ud] at h4; cases h4
  · show byteOf s1.M (s1.MB + 1#2) &&& 240#8 = _
    rw [hm, hmb]; exact byte_last h.m

theorem next_mul {a : Arch} (h : (opOf a.inst).toNat / 16 = 9) : a.next = { a with ia := a.ia + 4 } := by
  unfold Arch.next lenOf
  rw [if_neg (by omega), if_pos (by omega)]
  rfl

theorem operand_mul {a : Arch} (h : (opOf a.inst).toNat / 16 = 9) : a.operand =
    ea { a with ia := a.ia + 4 } 0 ((Arch2 a).extractLsb' 12 4) ((Arch2 a).extractLsb' 0 12) := by
  unfold Arch.operand indexOf
  rw [if_neg (by omega)]
  rfl

/-- Up to the loop. -/
theorem fetch_mult {e : Env} {tk : Bool} {a : Arch} {s : S} (ho : EnvOk e) (h : Ready e tk a s)
    (hia : InStore e a) (st : Bool) (hop : (opOf a.inst).toNat = if st then 0x90 else 0x98)
    (hx : a.operand.toNat % 4 = 0) (hl : a.operand.toNat + 4 ≤ 4 * words e) :
    Ev e tk (Mult e tk a.next st (dig1 a.inst) (dig2 a.inst) a.operand) s := by
  have h9 : (opOf a.inst).toNat / 16 = 9 := by rw [hop]; cases st <;> rfl
  refine Ev.bind (fetch_rx ho h (by omega) (by omega) hia.rg) fun s1 h1 => ?_
  refine Ev.bind (to_op9 ho h1 h9) fun s2 h2 => ?_
  rw [← operand_mul h9, ← next_mul h9] at h2
  exact to_mult ho h2 st hop hx hl

/-! ### The theorems -/

/-- C161: LOAD MULTIPLE brings consecutive words from the operand address, a multiple of 4, into
the registers from the first to the last named one, register 0 following 15, and changes nothing
else.  `hia` and `hi`: this instruction and the next one are inside storage; `hl`: so is the operand. -/
theorem C161_load_multiple {e : Env} {tk : Bool} {a : Arch} {s : S} (ho : EnvOk e)
    (h : Ready e tk a s) (hia : InStore e a) (hop : (opOf a.inst).toNat = 0x98)
    (hx : a.operand.toNat % 4 = 0)
    (hl : a.operand.toNat + 4 * span (dig1 a.inst) (dig2 a.inst) ≤ 4 * words e)
    (hi : InStore e a.next) (tick : Nat → Bool) (ht : ∀ i, tick i = true → tk = true) :
    ∃ n s', run e tick n s = .ok s' ∧
      (Ready e tk (a.next.loadMultiple (dig1 a.inst) (dig2 a.inst) a.operand.toNat) s' ∨
       Pend e tk (a.next.loadMultiple (dig1 a.inst) (dig2 a.inst) a.operand.toNat) s') := by
  have h0 : 1 ≤ span (dig1 a.inst) (dig2 a.inst) := by unfold span; omega
  exact ((fetch_mult ho h hia false hop hx (by omega)).bind fun s1 h1 =>
    lm_loop ho _ _ _ _ _ _ rfl h1 hx hl hi).run tick ht

/-- C161: STORE MULTIPLE puts the registers from the first to the last named one, register 0
following 15, into consecutive words from the operand address, a multiple of 4, and changes nothing
else - the next instructions are fetched as they are after it. `hk`: no word is protected. -/
theorem C161_store_multiple {e : Env} {tk : Bool} {a : Arch} {s : S} (ho : EnvOk e)
    (h : Ready e tk a s) (hia : InStore e a) (hop : (opOf a.inst).toNat = 0x90)
    (hx : a.operand.toNat % 4 = 0)
    (hl : a.operand.toNat + 4 * span (dig1 a.inst) (dig2 a.inst) ≤ 4 * words e)
    (hk : ∀ k, k < span (dig1 a.inst) (dig2 a.inst) → a.permits (a.operand + BitVec.ofNat 32 (4 * k)))
    (hi : InStore e a.next) (tick : Nat → Bool) (ht : ∀ i, tick i = true → tk = true) :
    ∃ n s', run e tick n s = .ok s' ∧
      (Ready e tk (a.next.storeMultiple (dig1 a.inst) (dig2 a.inst) a.operand.toNat) s' ∨
       Pend e tk (a.next.storeMultiple (dig1 a.inst) (dig2 a.inst) a.operand.toNat) s') := by
  have h0 : 1 ≤ span (dig1 a.inst) (dig2 a.inst) := by unfold span; omega
  exact ((fetch_mult ho h hia true hop hx (by omega)).bind fun s1 h1 =>
    stm_loop ho _ _ _ _ _ _ rfl h1 hx hl hk hi).run tick ht

/-- At 100: `LM 14,1,200`. -/
def lmMem : Nat → W := fun i => if i = 0x40 then 0x98e10200 else if 0x80 ≤ i ∧ i < 0x84 then BitVec.ofNat 32 i else 0

example (tick : Nat → Bool) : ∃ n s', run e64 tick n (start lmMem 0 fun _ => 0) = .ok s' ∧
    ∃ b : Arch, (b.gr 14 = 0x80 ∧ b.gr 15 = 0x81 ∧ b.gr 0 = 0x82 ∧ b.gr 1 = 0x83 ∧ b.gr 2 = 0 ∧ b.ia = 0x104) ∧
      (Ready e64 true b s' ∨ Pend e64 true b s') := by
  obtain ⟨n, s', h1, h2⟩ := C161_load_multiple (tk := true) (a := arch0 lmMem 0 fun _ => 0) e64_ok
    (start_ready true lmMem 0 fun _ => 0) ⟨by decide, by decide⟩ (by decide) (by decide) (by decide)
    ⟨by decide, by decide⟩ tick (by simp)
  exact ⟨n, s', h1, _, by decide, h2⟩

/-- At 100: `STM 14,1,104`, which also changes the next instructions. -/
def stmMem : Nat → W := fun i => if i = 0x40 then 0x90e10104 else 0x12345678

example (tick : Nat → Bool) : ∃ n s', run e64 tick n (start stmMem 0 fun _ => 0) = .ok s' ∧
    ∃ b : Arch, (b.mem 0x40 = 0x90e10104 ∧ b.mem 0x41 = 0 ∧ b.mem 0x44 = 0 ∧ b.mem 0x45 = 0x12345678) ∧
      (Ready e64 true b s' ∨ Pend e64 true b s') := by
  obtain ⟨n, s', h1, h2⟩ := C161_store_multiple (tk := true) (a := arch0 stmMem 0 fun _ => 0) e64_ok
    (start_ready true stmMem 0 fun _ => 0) ⟨by decide, by decide⟩ (by decide) (by decide) (by decide)
    (fun _ _ => rfl) ⟨by decide, by decide⟩ tick (by simp)
  exact ⟨n, s', h1, _, by decide, h2⟩

end Cpu50

end Verif
