import Verif.Cpu50.Model
import Verif.Cpu50.Ros

/-!
# Model 2050: the storage cycle behind a run of microinstructions

Lemmas about `cycle`: a microinstruction which does not need storage runs at once and the
storage cycle goes on behind it (`bg`); one which needs it waits for the third quarter.
-/

namespace Verif.Cpu50

/-- The model's environment with the control storage of `ros.txt` and `words` of storage. -/
structure EnvOk (e : Env) : Prop where
  ros : e.ros = ros
  top : e.memMax.toNat + 1 = 4 * words e
  lim : words e ≤ 0x10000

/-- Whatever the timer does (`tk` says whether it may tick), `P` is reached. -/
inductive Ev (e : Env) (tk : Bool) (P : S → Prop) : S → Prop
  | now {s : S} : P s → Ev e tk P s
  | step {s : S} (f : Bool → S) : (∀ t, (t = true → tk = true) → cycle e t s = .ok (f t)) →
      (∀ t, (t = true → tk = true) → Ev e tk P (f t)) → Ev e tk P s

/-- What is reached may be replaced by what is reached from it. -/
theorem Ev.bind {e : Env} {tk : Bool} {P Q : S → Prop} {s : S} (h : Ev e tk P s)
    (k : ∀ s', P s' → Ev e tk Q s') : Ev e tk Q s := by
  induction h with
  | now h => exact k _ h
  | step f h1 _ ih => exact .step f h1 ih

/-- The cycles of a run: tick number `i` is given by `tick i`. -/
def run (e : Env) (tick : Nat → Bool) : Nat → S → Out S
  | 0, s => .ok s
  | n + 1, s => (cycle e (tick 0) s).bind (run e (fun i => tick (i + 1)) n)

/-- Every run reaches `P`. -/
theorem Ev.run {e : Env} {tk : Bool} {P : S → Prop} {s : S} (h : Ev e tk P s) :
    ∀ tick : Nat → Bool, (∀ i, tick i = true → tk = true) →
      ∃ n s', Cpu50.run e tick n s = .ok s' ∧ P s' := by
  induction h with
  | now h => exact fun _ _ => ⟨0, _, rfl, h⟩
  | step f h1 _ ih =>
    intro tick ht
    obtain ⟨n, s2, h3, h4⟩ := ih (tick 0) (ht 0) (fun i => tick (i + 1)) (fun i => ht (i + 1))
    refine ⟨n + 1, s2, ?_, h4⟩
    show (cycle e (tick 0) _).bind _ = _
    rw [h1 _ (ht 0)]; exact h3

/-- No storage reference is waiting, and unless the timer may tick there is no reason for an
interruption. -/
structure Calm (e : Env) (tk : Bool) (s : S) : Prop where
  im : s.initMem = false
  ib : s.initBump = false
  ud : s.updD = false
  nz : s.ms ≠ .zero
  rg : s.ms = .r1 ∨ s.ms = .r2 → s.bump = true ∨ memIx s.SA < words e
  qt : tk = false → exc s = false

/-- The storage cycle's own next quarter. -/
def bgMs : MS → MS
  | .r1 => .r2
  | .r2 => .r3
  | _ => .w1

/-- The storage data register behind a microinstruction. -/
def bgSdr (s : S) : W :=
  if s.ms = .r2 then (if s.bump then s.bumpM (bumpIx s.SA) else s.mem (memIx s.SA)) else s.SDR

/-- The storage cycle and the timer behind a microinstruction. -/
def bg (t : Bool) (s : S) : S :=
  { s with timUp := s.timUp || (t && !s.man), ms := bgMs s.ms, SDR := bgSdr s,
           SA := if s.ms = .w1 then s.SAR &&& 0x3ffff else s.SA }

/-- Words which neither use storage nor the storage data register. -/
def plain (w : Word) : Bool := !interlocked w.tr && !usesStore w

theorem plain_29 {w : Word} (h : plain w = true) : (w.tr == 29) = false := by
  by_cases h1 : w.tr = 29
  · exfalso
    have h2 : interlocked w.tr = true := by rw [h1]; decide +kernel
    simp [plain, h2] at h
  · simp [h1]

theorem memIx_and (a : W) : memIx (a &&& 0x3ffff) = a.toNat % 0x40000 / 4 := by
  have h : (a &&& 0x3ffff#32).toNat = a.toNat % 0x40000 := by
    rw [BitVec.toNat_and]; exact Nat.and_two_pow_sub_one_eq_mod a.toNat 18
  show ((a &&& 0x3ffff#32) >>> 2).toNat = _
  rw [BitVec.toNat_ushiftRight, h, Nat.shiftRight_eq_div_pow]

/-- A plain word runs at once. -/
theorem cycle_plain (e : Env) (t : Bool) (s : S) {tk : Bool} (hc : Calm e tk s)
    (hw : plain (e.ros s.ROAR) = true) :
    cycle e t s = exec e (e.ros s.ROAR) (exc (tickStep t s)) (bg t s) := by
  obtain ⟨im, ib, ud, nz, rg, _⟩ := hc
  have h29 := plain_29 hw
  simp only [plain, Bool.and_eq_true, Bool.not_eq_true'] at hw
  have : memCycle e (e.ros s.ROAR) (tickStep t s) = .ok (false, bg t s) := by
    cases hm : s.ms with
    | r1 => simp [memCycle, tickStep, hm, hw, im, ib, ud, bg, bgMs, bgSdr]
    | r2 =>
      cases hb : s.bump with
      | true => simp [memCycle, tickStep, hm, hw, im, ib, ud, bg, bgMs, bgSdr, fetch, hb,
          Out.bind]
      | false =>
        have : memIx s.SA < words e := by simpa [hb] using rg (.inr hm)
        simp [memCycle, tickStep, hm, hw, im, ib, ud, bg, bgMs, bgSdr, fetch, hb,
          Out.bind, memRead, this]
    | r3 => simp [memCycle, tickStep, hm, im, ib, ud, bg, bgMs, bgSdr, h29]
    | w1 => simp [memCycle, tickStep, hm, im, ib, ud, bg, bgMs, bgSdr, writeBack, Out.bind,
        accept]
    | zero => exact absurd hm nz
  simp [cycle, this, Out.bind]

/-- The part of the state the storage cycle and interruptions depend on. -/
def memPart (s : S) : (Bool × Bool × Bool × MS × Bool × W) × Bool × Bool × Bool × Bool × Bool ×
    Bool × B × B :=
  ((s.initMem, s.initBump, s.updD, s.ms, s.bump, s.SA), s.man, s.wait, s.stop, s.timUp, s.intr,
   s.timIrq, s.MASK, s.BCHI)

theorem exc_congr {s s' : S} (hq : memPart s' = memPart s) : exc s' = exc s := by
  simp only [memPart, Prod.mk.injEq] at hq
  simp only [exc, hq]

theorem Calm.congr {e : Env} {tk : Bool} {s s' : S} (h : Calm e tk s)
    (hq : memPart s' = memPart s) : Calm e tk s' := by
  have hx := exc_congr hq
  simp only [memPart, Prod.mk.injEq] at hq
  obtain ⟨⟨h1, h2, h3, h4, h5, h6⟩, -⟩ := hq
  obtain ⟨im, ib, ud, nz, rg, qt⟩ := h
  exact ⟨h1.trans im, h2.trans ib, h3.trans ud, h4 ▸ nz, by rw [h4, h5, h6]; exact rg,
    fun h => hx.trans (qt h)⟩

theorem exc_tick {tk t : Bool} {s : S} (h : tk = false → exc s = false)
    (ht : t = true → tk = true) : tk = false → exc (tickStep t s) = false := by
  intro h1
  have : t = false := by
    cases t with
    | false => rfl
    | true => rw [ht rfl] at h1; cases h1
  rw [← h h1, this]; simp [exc, tickStep]

theorem Calm.bg {e : Env} {tk : Bool} {s : S} (h : Calm e tk s) (t : Bool)
    (ht : t = true → tk = true) : Calm e tk (bg t s) := by
  have hx : tk = false → exc (Cpu50.bg t s) = false := exc_tick h.qt ht
  obtain ⟨im, ib, ud, nz, rg, qt⟩ := h
  refine ⟨im, ib, ud, ?_, ?_, hx⟩
  · show bgMs s.ms ≠ _
    cases s.ms <;> decide
  · show bgMs s.ms = _ ∨ bgMs s.ms = _ → _
    cases hm : s.ms with
    | r1 => exact fun _ => by simpa [Cpu50.bg, hm] using rg (.inl hm)
    | _ => simp [bgMs]

/-- One plain word. -/
theorem Ev.plain {e : Env} {tk : Bool} {P : S → Prop} {s : S} (ho : EnvOk e)
    (hc : Calm e tk s)
    {n : Nat} (hr : s.ROAR = n) (hp : plain (Cpu50.ros n) = true) {f : Bool → S}
    (hx : ∀ t, exec e (Cpu50.ros n) (exc (tickStep t s)) (Cpu50.bg t s) = .ok (f t))
    (hq : ∀ t, memPart (f t) = memPart (Cpu50.bg t s))
    (k : ∀ t, (t = true → tk = true) → Calm e tk (f t) → Ev e tk P (f t)) : Ev e tk P s := by
  refine .step f (fun t _ => ?_) (fun t ht => k t ht ((hc.bg t ht).congr (hq t)))
  rw [cycle_plain e t s hc (by rw [hr, ho.ros]; exact hp), hr, ho.ros]
  exact hx t

/-! ### Words which wait for storage -/

/-- What the storage data register will hold when the storage cycle is over. -/
def sdrAt (s : S) : W :=
  if s.ms = .r1 ∨ s.ms = .r2 then
    (if s.bump then s.bumpM (bumpIx s.SA) else s.mem (memIx s.SA)) else s.SDR

theorem sdrAt_bg (t : Bool) (s : S) : sdrAt (bg t s) = sdrAt s := by
  cases h : s.ms <;> simp [sdrAt, bg, bgMs, bgSdr, h]

/-- A cycle in which the microinstruction waits. -/
theorem cycle_held (e : Env) (t : Bool) (s s' : S)
    (h : memCycle e (e.ros s.ROAR) (tickStep t s) = .ok (true, s')) : cycle e t s = .ok s' := by
  simp [cycle, h, Out.bind]

/-- A cycle in which the microinstruction runs. -/
theorem cycle_run (e : Env) (t : Bool) (s s' : S)
    (h : memCycle e (e.ros s.ROAR) (tickStep t s) = .ok (false, s')) :
    cycle e t s = exec e (e.ros s.ROAR) (exc (tickStep t s)) s' := by
  simp [cycle, h, Out.bind]

/-- The storage cycle alone, while the microinstruction waits. -/
theorem mem_wait {e : Env} {tk : Bool} {s : S} (hc : Calm e tk s) (w : Word)
    (hw : (interlocked w.tr || usesStore w) = true)
    (hm : s.ms = .r1 ∨ s.ms = .r2) (t : Bool) :
    memCycle e w (tickStep t s) = .ok (true, bg t s) := by
  obtain ⟨im, ib, ud, nz, rg, _⟩ := hc
  have rg := rg hm
  rcases hm with hm | hm
  · simp [memCycle, tickStep, hm, hw, bg, bgMs, bgSdr]
  · cases hb : s.bump with
    | true => simp [memCycle, tickStep, hm, hw, im, ib, ud, bg, bgMs, bgSdr, fetch, hb, Out.bind]
    | false =>
      have : memIx s.SA < words e := by simpa [hb] using rg
      simp [memCycle, tickStep, hm, hw, im, ib, ud, bg, bgMs, bgSdr, fetch, hb,
          Out.bind, memRead, this]

/-- In the third and fourth quarter it runs. -/
theorem mem_go {e : Env} {tk : Bool} {s : S} (hc : Calm e tk s) (w : Word)
    (hw : (w.tr == 29) = false) (hm : s.ms = .r3 ∨ s.ms = .w1) (t : Bool) :
    memCycle e w (tickStep t s) = .ok (false, bg t s) := by
  obtain ⟨im, ib, ud, nz, rg, _⟩ := hc
  rcases hm with hm | hm
  · simp [memCycle, tickStep, hm, im, ib, ud, bg, bgMs, bgSdr, hw]
  · simp [memCycle, tickStep, hm, im, ib, ud, bg, bgMs, bgSdr, writeBack, Out.bind, accept]

/-- One word which waits for the storage data register or for the end of the storage cycle. -/
theorem Ev.wait {e : Env} {tk : Bool} {P : S → Prop} {s : S} (ho : EnvOk e)
    (hc : Calm e tk s) {n : Nat} (hr : s.ROAR = n)
    (hw : (interlocked (Cpu50.ros n).tr || usesStore (Cpu50.ros n)) = true)
    (h29 : ((Cpu50.ros n).tr == 29) = false) {f : Bool → W → Bool → S}
    (hx : ∀ tu sa ex, exec e (Cpu50.ros n) ex
      { s with timUp := tu, SDR := sdrAt s, SA := sa, ms := .w1 } = .ok (f tu sa ex))
    (k : ∀ tu sa ex, (tk = false → ex = false) →
      Calm e tk { s with timUp := tu, SDR := sdrAt s, SA := sa, ms := .w1 } →
      Ev e tk P (f tu sa ex)) : Ev e tk P s := by
  -- the last cycle
  have last : ∀ s1 : S, Calm e tk s1 → s1.ms = .r3 ∨ s1.ms = .w1 →
      (∃ tu sdr sa ms, s1 = { s with timUp := tu, SDR := sdr, SA := sa, ms := ms }) →
      sdrAt s1 = sdrAt s → Ev e tk P s1 := by
    rintro s1 hc1 hm ⟨tu, sdr, sa, ms, h1⟩ h2
    have hr1 : s1.ROAR = n := by rw [h1]; exact hr
    have hb : ∀ t, Cpu50.bg t s1 = { s with timUp := (Cpu50.bg t s1).timUp, SDR := sdrAt s,
                                            SA := (Cpu50.bg t s1).SA, ms := .w1 } := by
      intro t
      have h3 : sdrAt s1 = s1.SDR := by rcases hm with hm | hm <;> simp [sdrAt, hm]
      have h4 : bgMs s1.ms = .w1 := by rcases hm with hm | hm <;> rw [hm] <;> rfl
      have h5 : bgSdr s1 = s1.SDR := by rcases hm with hm | hm <;> simp [bgSdr, hm]
      rw [h3] at h2
      simp only [Cpu50.bg, h4, h5, h2]
      rw [h1]
    refine .step (fun t => f (Cpu50.bg t s1).timUp (Cpu50.bg t s1).SA (exc (tickStep t s1)))
      (fun t _ => ?_) (fun t ht => ?_)
    · have hgo := mem_go hc1 (e.ros s1.ROAR) (by rw [hr1, ho.ros]; exact h29) hm t
      rw [hb t] at hgo
      rw [cycle_run e t s1 _ hgo, hr1, ho.ros]; exact hx _ _ _
    · exact k _ _ _ (exc_tick hc1.qt ht) (by rw [← hb t]; exact hc1.bg t ht)
  -- the cycle before it
  have wait : ∀ s1 : S, Calm e tk s1 → s1.ms = .r1 ∨ s1.ms = .r2 →
      (∃ tu sdr sa ms, s1 = { s with timUp := tu, SDR := sdr, SA := sa, ms := ms }) →
      (∀ t, (t = true → tk = true) → Ev e tk P (Cpu50.bg t s1)) → Ev e tk P s1 := by
    rintro s1 hc1 hm ⟨tu, sdr, sa, ms, h1⟩ h2
    refine .step (fun t => Cpu50.bg t s1) (fun t _ => ?_) h2
    have hr1 : s1.ROAR = n := by rw [h1]; exact hr
    exact cycle_held e t s1 _ (mem_wait hc1 _ (by rw [hr1, ho.ros]; exact hw) hm t)
  have mid : ∀ s1 : S, Calm e tk s1 → s1.ms = .r2 →
      (∃ tu sdr sa ms, s1 = { s with timUp := tu, SDR := sdr, SA := sa, ms := ms }) →
      sdrAt s1 = sdrAt s → Ev e tk P s1 := by
    rintro s1 hc1 hm h1 h2
    refine wait s1 hc1 (.inr hm) h1 fun t ht => last _ (hc1.bg t ht) (.inl ?_) ?_ ?_
    · show bgMs s1.ms = _
      rw [hm]; rfl
    · obtain ⟨tu, sdr, sa, ms, rfl⟩ := h1
      exact ⟨_, _, _, _, rfl⟩
    · rw [sdrAt_bg, h2]
  have me : ∃ tu sdr sa ms, s = { s with timUp := tu, SDR := sdr, SA := sa, ms := ms } :=
    ⟨s.timUp, s.SDR, s.SA, s.ms, rfl⟩
  cases hm : s.ms with
  | r1 =>
    refine wait s hc (.inl hm) me fun t ht => mid _ (hc.bg t ht) ?_ ?_ (sdrAt_bg t s)
    · show bgMs s.ms = _
      rw [hm]; rfl
    · exact ⟨_, _, _, _, rfl⟩
  | r2 => exact mid s hc hm me rfl
  | r3 => exact last s hc (.inl hm) me rfl
  | w1 => exact last s hc (.inr hm) me rfl
  | zero => exact absurd hm hc.nz

/-! ### A new storage reference -/

/-- A state in which a reference to main storage is accepted next. A store which is still
being written back has its word in storage already. -/
structure Asks (e : Env) (tk : Bool) (s : S) : Prop where
  im : s.initMem = true
  ib : s.initBump = false
  ms : s.ms = .w1
  rg : s.SAR.toNat ≤ e.memMax.toNat
  st : s.updD = true → s.bump = false ∧ memIx s.SA < words e ∧ s.mem (memIx s.SA) = s.SDR
  qt : tk = false → exc s = false

/-- The state in which the reference has been accepted. -/
def acc (t : Bool) (s : S) : S :=
  { s with timUp := s.timUp || (t && !s.man), SA := s.SAR &&& 0x3ffff, bump := false,
           initMem := false, initBump := false, IVA := false, ms := .r1, updD := false,
           REFETCH := s.REFETCH || (s.updD && decide (s.SA >>> 2 = s.IA >>> 2)) }

theorem mem_acc {e : Env} {tk : Bool} {s : S} (h : Asks e tk s) (w : Word) (t : Bool) :
    memCycle e w (tickStep t s) = .ok (usesStore w || w.tr == 29, acc t s) := by
  obtain ⟨im, ib, ms, rg, st, _⟩ := h
  have hr : ¬ e.memMax < s.SAR := by rw [BitVec.lt_def]; omega
  cases hu : s.updD with
  | false =>
    simp [memCycle, tickStep, ms, writeBack, hu, Out.bind, accept, im, ib, hr, acc]
  | true =>
    obtain ⟨h1, h2, h3⟩ := st hu
    have h4 : (fun i => if i = memIx s.SA then s.SDR else s.mem i) = s.mem := by
      funext i
      by_cases hi : i = memIx s.SA
      · simp [hi, h3]
      · simp [hi]
    simp [memCycle, tickStep, ms, writeBack, hu, Out.bind, accept, im, ib, hr, acc, h1, h2, h4]

theorem acc_calm {e : Env} {tk : Bool} {s : S} (ho : EnvOk e) (h : Asks e tk s) (t : Bool)
    (ht : t = true → tk = true) : Calm e tk (acc t s) := by
  refine ⟨rfl, rfl, rfl, by simp [acc], fun _ => .inr ?_, exc_tick h.qt ht⟩
  show memIx (s.SAR &&& 0x3ffff) < _
  rw [memIx_and]
  have := h.rg
  have := ho.top
  have := ho.lim
  omega

/-- One word in the cycle in which a reference is accepted. -/
theorem Ev.acc {e : Env} {tk : Bool} {P : S → Prop} {s : S} (ho : EnvOk e)
    (h : Asks e tk s) {n : Nat} (hr : s.ROAR = n)
    (hp : (usesStore (Cpu50.ros n) || (Cpu50.ros n).tr == 29) = false) {f : Bool → S}
    (hx : ∀ t, exec e (Cpu50.ros n) (exc (tickStep t s)) (Cpu50.acc t s) = .ok (f t))
    (k : ∀ t, (t = true → tk = true) → Calm e tk (Cpu50.acc t s) → Ev e tk P (f t)) :
    Ev e tk P s := by
  refine .step f (fun t _ => ?_) (fun t ht => k t ht (acc_calm ho h t ht))
  have h1 := mem_acc h (e.ros s.ROAR) t
  rw [hr, ho.ros] at h1
  rw [hp] at h1
  rw [cycle_run e t s _ (by rw [hr, ho.ros]; exact h1), hr, ho.ros]
  exact hx t

/-- A word which waits, in the cycle in which a reference is accepted. -/
theorem Ev.accWait {e : Env} {tk : Bool} {P : S → Prop} {s : S} (ho : EnvOk e)
    (h : Asks e tk s) {n : Nat} (hr : s.ROAR = n)
    (hp : (usesStore (Cpu50.ros n) || (Cpu50.ros n).tr == 29) = true)
    (k : ∀ t, (t = true → tk = true) → Calm e tk (Cpu50.acc t s) →
      Ev e tk P (Cpu50.acc t s)) : Ev e tk P s := by
  refine .step _ (fun t _ => ?_) (fun t ht => k t ht (acc_calm ho h t ht))
  have h1 := mem_acc h (e.ros s.ROAR) t
  rw [hr, ho.ros, hp] at h1
  exact cycle_held e t s _ (by rw [hr, ho.ros]; exact h1)

end Verif.Cpu50
