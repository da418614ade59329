import Verif.Cpu50.Rx

/-!
# Model 2050: stores

A word is stored either by changing the storage data register in the third quarter of the
storage cycle (`Ev.mod`, then `end_w`), or in the quarter in which the reference is accepted
(`end_s`).
-/

namespace Verif.Cpu50
open Verif.S360
attribute [local irreducible] ros

/-- The word at `SA` replaced by the storage data register. -/
def memUpd (s : S) : Nat → W := fun i => if i = memIx s.SA then s.SDR else s.mem i

theorem inter29 {w : Word} (h : (w.tr == 29) = true) : interlocked w.tr = true := by
  rw [eq_of_beq h]; decide +kernel

/-- One word which changes the storage data register (`tr` 29), from the first quarter. -/
theorem Ev.mod {e : Env} {tk : Bool} {P : S → Prop} {s : S} (ho : EnvOk e)
    (hc : Calm e tk s) (hb : s.bump = false) (hm : s.ms = .r1) {n : Nat} (hr : s.ROAR = n)
    (h29 : ((Cpu50.ros n).tr == 29) = true) {f : Bool → Bool → S}
    (hx : ∀ tu ex, exec e (Cpu50.ros n) ex
      { s with timUp := tu, SDR := s.mem (memIx s.SA), ms := .w1 } = .ok (f tu ex))
    (k : ∀ tu ex, (tk = false → ex = false) →
      Calm e tk { s with timUp := tu, SDR := s.mem (memIx s.SA), ms := .w1 } →
      Ev e tk P (f tu ex)) : Ev e tk P s := by
  have hrg : memIx s.SA < words e := by simpa [hb] using hc.rg (.inl hm)
  have hint := inter29 h29
  have hwt : (interlocked (e.ros n).tr || usesStore (e.ros n)) = true := by
    rw [ho.ros, hint]; rfl
  refine .step (fun t => Cpu50.bg t s) (fun t _ => ?_) fun t ht => ?_
  · exact cycle_held e t s _ (mem_wait hc _ (by rw [hr]; exact hwt) (.inl hm) t)
  have hc1 := hc.bg t ht
  have hm1 : (Cpu50.bg t s).ms = .r2 := by show bgMs s.ms = _; rw [hm]; rfl
  generalize hs1 : Cpu50.bg t s = s1 at *
  have e1 : s1 = { s with timUp := s1.timUp, ms := .r2 } := by
    rw [← hs1]; simp [Cpu50.bg, hm, bgMs, bgSdr]
  refine .step (fun t => Cpu50.bg t s1) (fun t _ => ?_) fun t2 ht2 => ?_
  · refine cycle_held e t s1 _ (mem_wait hc1 _ ?_ (.inr hm1) t)
    rw [show s1.ROAR = n by rw [e1]; exact hr]; exact hwt
  have hc2 := hc1.bg t2 ht2
  generalize hs2 : Cpu50.bg t2 s1 = s2 at *
  have e2 : s2 = { s with timUp := s2.timUp, SDR := s.mem (memIx s.SA), ms := .r3 } := by
    rw [← hs2, e1]; simp [Cpu50.bg, bgMs, bgSdr, hb]
  have hst : (fun i => if i = memIx s.SA then s.mem (memIx s.SA) else s.mem i) = s.mem := by
    funext i
    by_cases hi : i = memIx s.SA
    · simp [hi]
    · simp [hi]
  have hmc : ∀ t, memCycle e (e.ros n) (tickStep t s2) = .ok (false,
      { s with timUp := s2.timUp || (t && !s.man), SDR := s.mem (memIx s.SA), ms := .w1 }) := by
    intro t
    rw [e2]
    have h3 : ((e.ros n).tr == 29) = true := by rw [ho.ros]; exact h29
    simp only [memCycle, tickStep, hc.im, hc.ib, hc.ud, h3, Cpu50.store, memWrite, hb, hrg, Out.bind]
    simp [hst]
  refine .step (fun t => f (s2.timUp || (t && !s.man)) (exc (tickStep t s2))) (fun t _ => ?_)
    fun t3 ht3 => ?_
  · have h1 := hmc t
    have hr2 : s2.ROAR = n := by rw [e2]; exact hr
    rw [cycle_run e t s2 _ (by rw [hr2]; exact h1), hr2, ho.ros]
    exact hx _ _
  · refine k _ _ (exc_tick hc2.qt ht3) ⟨hc.im, hc.ib, hc.ud, by simp, by simp, fun h => ?_⟩
    have := exc_tick hc2.qt ht3 h
    rw [← this, e2]; rfl

/-- One cycle. -/
theorem Ev.go {e : Env} {tk : Bool} {P : S → Prop} {s : S} {f : Bool → S}
    (hx : ∀ t, cycle e t s = .ok (f t)) (k : ∀ t, (t = true → tk = true) → Ev e tk P (f t)) :
    Ev e tk P s := .step f (fun t _ => hx t) k

/-- The last microinstruction of a store, in the quarter in which it is written back. -/
theorem end_w {e : Env} {tk : Bool} {a : Arch} {s : S} (ho : EnvOk e)
    (im : s.initMem = false) (ib : s.initBump = false) (ud : s.updD = true) (ms : s.ms = .w1)
    (hb : s.bump = false) (rg : memIx s.SA < words e) (qt : tk = false → exc s = false)
    (arch : { archOf s with mem := memUpd s } = a) (f : s.F.toNat < 16)
    (odd : a.ia.toNat % 4 = 2 → s.REFETCH = false → s.LS 30 = s.mem (a.ia.toNat / 4) ∧
      s.SYLS1 = (s.LS 30 &&& 0xc000#32 == 0#32))
    (hi : InStore e a) (hr : s.ROAR = 0x197) : Ev e tk (Bd e tk a) s := by
  have hmc : ∀ w t, memCycle e w (tickStep t s) = .ok (false,
      { s with timUp := s.timUp || (t && !s.man), updD := false, mem := memUpd s,
               REFETCH := s.REFETCH || decide (s.SA >>> 2 = s.IA >>> 2),
               SA := s.SAR &&& 0x3ffff }) := by
    intro w t
    simp only [memCycle, tickStep, ms, writeBack, ud, hb, rg, Out.bind, accept, im, ib]
    rfl
  refine Ev.go (fun t => (cycle_run e t s _ (hmc _ t)).trans (Eq.trans
    (congrArg (fun w => exec e w _ _) (by rw [hr, ho.ros])) (x197 e _ _))) fun t ht => .now ?_
  · refine end_c0 (s := { s with
        timUp := s.timUp || (t && !s.man), updD := false, mem := memUpd s,
        REFETCH := s.REFETCH || decide (s.SA >>> 2 = s.IA >>> 2), SA := s.SAR &&& 0x3ffff })
      ho hi (exc_tick qt ht) (fun h => ?_) ms arch ?_ ?_ rfl ib ?_ f rfl rfl rfl rfl
    · have := exc_tick qt ht h
      rw [← this]; rfl
    · rw [← arch]; rfl
    · intro h1 h2
      simp only [Bool.or_eq_false_iff, decide_eq_false_iff_not] at h2
      obtain ⟨h3, h4⟩ := odd h1 h2.1
      refine ⟨?_, h4⟩
      show s.LS 30 = _
      rw [h3, ← arch]
      show _ = memUpd s _
      have hia : s.IA = a.ia := by rw [← arch]; rfl
      unfold memUpd
      rw [if_neg]
      intro h5
      refine h2.2 (BitVec.eq_of_toNat_eq ?_)
      rw [show s.IA = a.ia by rw [← arch]; rfl]
      show memIx s.SA = _
      rw [← h5, BitVec.toNat_ushiftRight, Nat.shiftRight_eq_div_pow, ← arch]
    · intro h; cases h

/-- The last microinstruction of a store accepted together with it. -/
theorem end_s0 {e : Env} {tk : Bool} {P : S → Prop} {s : S} (ho : EnvOk e)
    (im : s.initMem = false) (ib : s.initBump = false) (ud : s.updD = true) (ms : s.ms = .r1)
    (hb : s.bump = false) (rg : memIx s.SA < words e) (qt : tk = false → exc s = false)
    (hr : s.ROAR = 0x197) {f : Bool → Bool → S}
    (hx : ∀ tu ex, exec e (Cpu50.ros 0x197) ex { s with timUp := tu, ms := .w1, mem := memUpd s } =
      .ok (f tu ex))
    (k : ∀ tu ex, (tk = false → ex = false) →
      (tk = false → exc { s with timUp := tu, ms := .w1, mem := memUpd s } = false) →
      P (f tu ex)) : Ev e tk P s := by
  have hw : (e.ros 0x197).tr ≠ 29 := by rw [ho.ros, w197]; decide
  have hw' : ((e.ros 0x197).tr == 29) = false := by simpa using hw
  -- first quarter
  refine .step (fun t => { s with timUp := s.timUp || (t && !s.man), ms := .r2 })
    (fun t _ => cycle_held e t s _ ?_) fun t ht => ?_
  · simp [memCycle, tickStep, ms, ud]
  have q1 := exc_tick qt ht
  -- second quarter
  refine .step (fun t2 => { s with timUp := s.timUp || (t && !s.man) || (t2 && !s.man), ms := .r3 })
    (fun t2 _ => cycle_held e t2 _ _ ?_) fun t2 ht2 => ?_
  · simp only [hr]
    simp [memCycle, tickStep, ud, hw', Out.bind]
  have q2 := exc_tick (s := { s with timUp := s.timUp || (t && !s.man), ms := .r2 }) q1 ht2
  generalize htu : (s.timUp || (t && !s.man) || (t2 && !s.man)) = tu
  -- third quarter
  have hmc : ∀ w t3, memCycle e w (tickStep t3 { s with timUp := tu, ms := .r3 }) =
      .ok (false, { s with timUp := tu || (t3 && !s.man), ms := .w1, mem := memUpd s }) := by
    intro w t3
    simp only [memCycle, tickStep, im, ib, ud, Cpu50.store, hb, memWrite, rg, Out.bind]
    rfl
  have q2' : tk = false → exc { s with timUp := tu, ms := .r3 } = false := by
    intro h
    rw [← q2 h, ← htu]; rfl
  refine Ev.go (fun t3 => (cycle_run e t3 _ _ (hmc _ t3)).trans (Eq.trans
    (congrArg (fun w => exec e w _ _) (by simp only [hr]; rw [ho.ros])) (hx _ _)))
    fun t3 ht3 => .now ?_
  refine k _ _ (exc_tick q2' ht3) (fun h => ?_)
  have := exc_tick q2' ht3 h
  rw [← this]; rfl

/-- The last microinstruction of a store accepted together with it: right unless the word is
the one with the next instruction in its right half. -/
theorem end_s {e : Env} {tk : Bool} {a : Arch} {s : S} (ho : EnvOk e)
    (im : s.initMem = false) (ib : s.initBump = false) (ud : s.updD = true) (ms : s.ms = .r1)
    (hb : s.bump = false) (rg : memIx s.SA < words e) (qt : tk = false → exc s = false)
    (arch : { archOf s with mem := memUpd s } = a) (f : s.F.toNat < 16)
    (odd : a.ia.toNat % 4 = 2 → s.REFETCH = false → s.LS 30 = a.mem (a.ia.toNat / 4) ∧
      s.SYLS1 = (s.LS 30 &&& 0xc000#32 == 0#32))
    (hi : InStore e a) (hr : s.ROAR = 0x197) : Ev e tk (Bd e tk a) s := by
  refine end_s0 ho im ib ud ms hb rg qt hr (fun tu ex => x197 e _ _) fun tu ex hex hq => ?_
  refine end_c0 ho hi hex hq rfl arch ?_ ?_ rfl ib ?_ f rfl rfl rfl rfl
  · rw [← arch]; rfl
  · exact odd
  · intro _
    refine ⟨hb, rg, ?_⟩
    show memUpd s (memIx s.SA) = s.SDR
    simp [memUpd]

/-- The check of the storage key is the one of the architecture. -/
theorem permit_of {a : Arch} {x : W} {s : S} (h : archOf s = a) (hs : s.SAR = x)
    (hk : a.permits x) (hx : x.toNat < 0x40000) : Permit s := by
  have h1 : s.KEY = a.key := by rw [← h]; rfl
  have h2 : s.MP = a.keys := by rw [← h]; rfl
  have h3 : keyIx s = x.toNat / 2048 := by
    unfold keyIx
    rw [BitVec.toNat_ushiftRight, Nat.shiftRight_eq_div_pow, hs]
  simp only [Arch.permits, Bool.or_eq_true, beq_iff_eq] at hk
  unfold Permit
  rw [h1, h2, h3]
  rcases hk with hk | hk
  · exact .inl hk
  · exact .inr ⟨by omega, hk.symm⟩

theorem Permit.congr {s s' : S} (h : Permit s) (h1 : s'.KEY = s.KEY) (h2 : s'.SAR = s.SAR)
    (h3 : s'.MP = s.MP) : Permit s' := by
  unfold Permit keyIx at h ⊢
  rw [h1, h2, h3]; exact h

/-- ST: `281`, `197`. -/
theorem st_exec {e : Env} {tk : Bool} {a : Arch} {i : BitVec 16} {x : W} {s : S}
    (ho : EnvOk e) (h : OpX e tk a i x s) (hop : (opOf i).toNat = 0x50) (hk : a.permits x)
    (hx : x.toNat + 4 ≤ 4 * words e)
    (hz : a.ia.toNat % 4 = 2 → x.toNat / 4 ≠ a.ia.toNat / 4)
    (hi : InStore e a) : Ev e tk (Bd e tk (a.store x.toNat (a.gr (dig1 i)))) s := by
  have hro := h.roar
  rw [hop] at hro
  have hkey : Permit s := permit_of h.arch (by rw [h.sar]) hk (by have := ho.lim; omega)
  refine Ev.acc (n := 0x281) ho h.ask hro (by rw [w281]; decide)
    (fun t => x281_k e _ (acc t s) (hkey.congr rfl rfl rfl)) fun t ht hc => ?_
  have hlim := ho.lim
  have hsa : memIx (acc t s).SA = x.toNat / 4 := by
    show memIx (s.SAR &&& 0x3ffff) = _
    rw [memIx_and, h.sar, Nat.mod_eq_of_lt (by omega)]
  refine end_s ho hc.im hc.ib rfl rfl rfl ?_ (fun h1 => ?_) ?_ h.f ?_ (hi.same rfl) rfl
  · show memIx (acc t s).SA < _
    rw [hsa]; omega
  · rw [← hc.qt h1]; rfl
  · rw [← h.arch, ← show s.L = (archOf s).gr (dig1 i) by rw [h.l, h.arch]]
    exact congrArg (fun n => ({ archOf s with mem := fun i => if i = n then s.L else s.mem i } : Arch))
      hsa
  · intro h1 h2
    obtain ⟨h3, h4⟩ := h.odd h1 (by
      simp only [acc, h.ud, Bool.false_and, Bool.or_false] at h2
      exact h2)
    refine ⟨?_, h4⟩
    show s.LS 30 = if _ then _ else _
    rw [if_neg (fun h5 => hz h1 h5.symm)]
    exact h3

/-- The fetch of the instruction in the right half of the word `w` begins, whatever is in
storage at its address. -/
structure Stale (e : Env) (a : Arch) (w : W) (s : S) : Prop where
  ask : Asks e false s
  f : s.F.toNat < 16
  roar : s.ROAR = 0x148
  arch : archOf s = a
  ia : a.ia.toNat % 4 = 2
  l : s.L = w
  syl : s.SYLS1 = (s.L &&& 0xc000#32 == 0#32)

/-- ST over the word with the next instruction in its right half: the word fetched before
the store is the one from which the instruction will be taken. -/
theorem st_stale {e : Env} {a : Arch} {i : BitVec 16} {x : W} {s : S}
    (ho : EnvOk e) (h : OpX e false a i x s) (rf : s.REFETCH = false) (hop : (opOf i).toNat = 0x50)
    (hk : a.permits x)
    (hx : x.toNat + 4 ≤ 4 * words e) (hz : a.ia.toNat % 4 = 2) (hi : InStore e a) :
    Ev e false (Stale e (a.store x.toNat (a.gr (dig1 i))) (a.mem (a.ia.toNat / 4))) s := by
  have hro := h.roar
  rw [hop] at hro
  have hkey : Permit s := permit_of h.arch (by rw [h.sar]) hk (by have := ho.lim; omega)
  refine Ev.acc (n := 0x281) ho h.ask hro (by rw [w281]; decide)
    (fun t => x281_k e _ (acc t s) (hkey.congr rfl rfl rfl)) fun t ht hc => ?_
  have hlim := ho.lim
  have hsa : memIx (acc t s).SA = x.toNat / 4 := by
    show memIx (s.SAR &&& 0x3ffff) = _
    rw [memIx_and, h.sar, Nat.mod_eq_of_lt (by omega)]
  have hrg : memIx (acc t s).SA < words e := by rw [hsa]; omega
  obtain ⟨h3, h4⟩ := h.odd hz rf
  have hrf : (acc t s).REFETCH = false := by
    simp only [acc, h.ud, Bool.false_and, Bool.or_false, rf]
  have hIA : s.IA = a.ia := by rw [← h.arch]; rfl
  obtain ⟨hr1, hr2⟩ := ifAddr_rg ho hi (acc t s).REFETCH
  refine end_s0 ho hc.im hc.ib rfl rfl rfl hrg (fun h1 => ?_) rfl (fun tu ex => x197 e _ _)
    fun tu ex hex hq => ?_
  · rw [← hc.qt h1]; rfl
  obtain rfl := hex rfl
  have hne : ¬ a.ia &&& 2#32 = 0#32 := by
    have := and2_eq a.ia hi.ev
    rw [decide_eq_false (by omega)] at this
    simpa using this
  have hle : ¬ e.memMax < ifAddr (acc t s).REFETCH s.IA := by rw [BitVec.lt_def, hIA]; omega
  refine ⟨⟨?_, hc.ib, rfl, ?_, fun _ => ⟨rfl, hrg, ?_⟩, hq⟩, h.f, ?_, ?_, hz, h3, h4⟩
  · show (false || !decide (e.memMax < ifAddr (acc t s).REFETCH s.IA)) = true
    simp only [hle, decide_false, Bool.not_false, Bool.or_true]
  · show (ifAddr (acc t s).REFETCH s.IA).toNat ≤ _
    rw [hIA]; exact hr1
  · show (if _ then _ else _) = _
    exact if_pos rfl
  · show (328 ||| 2 * (false || s.IA &&& 2#32 == 0#32).toNat +
      (false || s.IA &&& 2#32 != 0#32 && (acc t s).REFETCH).toNat) = _
    rw [hrf, hIA, show (a.ia &&& 2#32 == 0#32) = false by simpa using hne]
    simp
  · rw [← h.arch, ← show s.L = (archOf s).gr (dig1 i) by rw [h.l, h.arch]]
    exact congrArg (fun n => ({ archOf s with mem := fun i => if i = n then s.L else s.mem i } : Arch))
      hsa

end Verif.Cpu50
