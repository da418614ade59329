import Verif.Cpu50.Words12
import Verif.Cpu50.OpCheck

/-!
# Model 2050: TEST AND SET

The words 90e, 904, 905 and 907 of `/repo/src/model2050/ros.txt`.
-/

namespace Verif.S360

/-- TEST AND SET: the byte at `x` becomes all ones, and the condition code its leftmost bit before. -/
def Arch.testAndSet (a : Arch) (x : Nat) : Arch :=
  (a.storeByte x 0xff).setCC (if (a.byte x).getMsbD 0 then 1 else 0)

end Verif.S360

namespace Verif.Cpu50

open Verif.S360
attribute [local irreducible] ros

theorem ts_val (w : W) (k : BitVec 2) :
    (w &&& ~~~bsMask (0#4 ||| 8#4 >>> k.toNat) ||| 4294967295#32 &&& bsMask (0#4 ||| 8#4 >>> k.toNat)) =
      (w &&& ~~~(0xff#32 <<< (24 - 8 * k.toNat)) ||| (0xff#8).setWidth 32 <<< (24 - 8 * k.toNat)) := by
  have h : ∀ k : BitVec 2, k = 0 ∨ k = 1 ∨ k = 2 ∨ k = 3 := by decide
  rcases h k with rfl | rfl | rfl | rfl <;>
  · apply BitVec.eq_of_getLsbD_eq; intro i hi
    interval_cases i <;> simp [bsMask]

theorem ts_cc (w : W) (k : BitVec 2) :
    (if w &&& bsMask (0#4 ||| 8#4 >>> k.toNat) &&& 2155905152#32 = 0#32 then 0#2 else 1#2) =
      if (w.extractLsb' (24 - 8 * k.toNat) 8).getMsbD 0 then 1 else 0 := by
  have h : ∀ k : BitVec 2, k = 0 ∨ k = 1 ∨ k = 2 ∨ k = 3 := by decide
  have key : ∀ n, n < 32 → (w &&& (1#32 <<< n) = 0#32 ↔ w.getLsbD n = false) := by
    intro n hn
    constructor
    · intro h0
      have := congrArg (fun v : W => v.getLsbD n) h0
      simpa [hn] using this
    · intro h0
      apply BitVec.eq_of_getLsbD_eq; intro i hi
      by_cases hin : i = n
      · subst hin; simp [h0]
      · simp [hi]
        intro _ h2 h3
        omega
  have fin : ∀ n, n < 32 → (if w &&& (1#32 <<< n) = 0#32 then 0#2 else 1#2) =
      if w.getLsbD n = true then 1#2 else 0#2 := by
    intro n hn
    by_cases hb : w.getLsbD n = true
    · rw [if_pos hb, if_neg (by rw [key n hn, hb]; decide)]
    · rw [if_neg hb, if_pos ((key n hn).2 (by simpa using hb))]
  rcases h k with rfl | rfl | rfl | rfl
  · have := fin 31 (by decide)
    rw [BitVec.and_assoc]
    simpa [bsMask, BitVec.getMsbD] using this
  · have := fin 23 (by decide)
    rw [BitVec.and_assoc]
    simpa [bsMask, BitVec.getMsbD] using this
  · have := fin 15 (by decide)
    rw [BitVec.and_assoc]
    simpa [bsMask, BitVec.getMsbD] using this
  · have := fin 7 (by decide)
    rw [BitVec.and_assoc]
    simpa [bsMask, BitVec.getMsbD] using this

/-- `90e 904`: the byte is asked for. -/
theorem ts_ask {e : Env} {tk : Bool} {a : Arch} {i : BitVec 16} {x : W} {s : S} {P : S → Prop} (ho : EnvOk e)
    (h : Op9 e tk a i x s) (hop : (opOf i).toNat = 0x93) (hx : x.toNat < 4 * words e)
    (k : ∀ s', AtEnd e tk a s' → s'.ms = .r1 → s'.bump = false → s'.SAR = x → memIx s'.SA = x.toNat / 4 →
      x.toNat / 4 < words e → s'.BS = 0#4 ||| 8#4 >>> (s.R.setWidth 2).toNat → s'.ILC = 2#2 → s'.ROAR = 0x905 →
      Ev e tk P s') : Ev e tk P s := by
  have hro := h.roar
  rw [hop] at hro
  refine Ev.wait (n := 0x90e) ho h.ae.calm hro (by rw [w90e]; decide) (by rw [w90e]; decide)
    (fun tu sa ex => x90e e _ _) fun tu sa ex hex hc2 => ?_
  have hq := Req.mk' (i := i) ho h.ae h.fn h.md hx (s' := { s with
    timUp := tu, SDR := sdrAt s, SA := sa, ms := .w1,
    SAR := s.R &&& 16777215#32, alu := s.R, aob := s.R, u := BitVec.setWidth 8 s.R,
    w := BitVec.setWidth 8 s.R,
    BS := 0#4, MB := BitVec.setWidth 2 s.R, EDST := 3#2, LSA := s.FN ++ s.J, initMem := true,
    ROAR := 0x904 })
    rfl rfl rfl rfl hc2.qt rfl rfl rfl rfl rfl rfl rfl h.r
  refine Ev.acc (n := 0x904) ho hq.ask rfl (by rw [w904]; decide) (fun t => x904 e _ _)
    fun t ht hc => ?_
  obtain ⟨hsa, hxw⟩ := hq.sa ho t
  have hae := hq.acc hc
  exact k _ (hae.upd (hc.congr (by unfold memPart; rfl)) hq.arch rfl rfl rfl rfl rfl rfl rfl) rfl rfl h.r hsa hxw
    rfl h.il rfl

/-- TS. -/
theorem ts_exec {e : Env} {tk : Bool} {a : Arch} {i : BitVec 16} {x : W} {s : S} (ho : EnvOk e)
    (h : Op9 e tk a i x s) (hop : (opOf i).toNat = 0x93) (hx : x.toNat < 4 * words e)
    (hk : a.permits x) (hi : InStore e a) :
    Ev e tk (Bd e tk (a.testAndSet x.toNat)) s := by
  refine ts_ask ho h hop hx fun s3 ae4 hms hbm hsar hsa hxw hbs _ hro => ?_
  have hpm : Permit s3 := permit_of ae4.arch hsar hk (by have := ho.lim; omega)
  refine Ev.mod (n := 0x905) ho ae4.calm hbm hms hro (by rw [w905]; rfl)
    (fun tu ex => x905_k e ex _ (hpm.congr rfl rfl rfl)) fun tu ex hex hc5 => ?_
  have h2 : (s.R.setWidth 2).toNat = x.toNat % 4 := low2 h.r
  have hmem : s3.mem = a.mem := by rw [← ae4.arch]; rfl
  have hval : (s3.mem (memIx s3.SA) &&& ~~~bsMask s3.BS ||| 4294967295#32 &&& bsMask s3.BS : W) =
      (a.mem (x.toNat / 4) &&& ~~~(0xff#32 <<< (24 - 8 * (x.toNat % 4)))) |||
        (0xff#8).setWidth 32 <<< (24 - 8 * (x.toNat % 4)) := by
    rw [hsa, hbs, ts_val, h2, hmem]
  have hcc : (if s3.mem (memIx s3.SA) &&& bsMask s3.BS &&& 2155905152#32 = 0#32 then 0#2 else 1#2) =
      if (a.byte x.toNat).getMsbD 0 then 1 else 0 := by
    rw [hsa, hbs, ts_cc, h2, hmem]; rfl
  have harch : archOf { s3 with
      CC := (if s3.mem (memIx s3.SA) &&& bsMask s3.BS &&& 2155905152#32 = 0#32 then 0#2 else 1#2)
      mem := (fun i => if i = memIx s3.SA then
        (s3.mem (memIx s3.SA) &&& ~~~bsMask s3.BS ||| 4294967295#32 &&& bsMask s3.BS : W) else s3.mem i) } =
      a.testAndSet x.toNat := by
    rw [hval, hcc, hsa]
    unfold Arch.testAndSet Arch.storeByte
    rw [← ae4.arch]
    rfl
  refine Ev.wb (n := 0x907) ho ae4.calm.im ae4.calm.ib rfl rfl hbm
    (by show memIx s3.SA < _; rw [hsa]; exact hxw) rfl (fun t => x907 e _ _) fun t5 ht5 => ?_
  refine end_a (n := 0x197) ho (wb_end (a := a.testAndSet x.toNat) (t := t5) (s := { s3 with
      timUp := tu, SDR := s3.mem (memIx s3.SA) &&& ~~~bsMask s3.BS ||| 4294967295#32 &&& bsMask s3.BS,
      ms := .w1, alu := 4294967295#32, aob := 4294967295#32, u := 0#8, w := 0#8,
      CC := if s3.mem (memIx s3.SA) &&& bsMask s3.BS &&& 2155905152#32 = 0#32 then 0#2 else 1#2,
      EDST := 3#2, LSA := s3.FN ++ s3.J, updD := true, ROAR := 0x907 }) ae4.calm.im ae4.calm.ib rfl
    (fun h1 => ?_) harch ae4.f ?_ ae4.iva ht5 (by unfold memPart; rfl)
    harch rfl rfl rfl rfl rfl rfl rfl) (hi.same rfl) rfl (by rw [w197, w144])
  · rw [← hc5.qt h1]; rfl
  · intro h1 h2
    have h3 := ae4.odd h1 h2
    rw [← hmem] at h3
    exact h3

/-- TS of a protected byte. -/
theorem ts_refused {e : Env} {tk : Bool} {a : Arch} {i : BitVec 16} {x : W} {s : S} (ho : EnvOk e)
    (h : Op9 e tk a i x s) (hop : (opOf i).toNat = 0x93) (hx : x.toNat < 4 * words e)
    (hk : a.permits x = false) :
    Ev e tk (Refused e tk (a.setCC (if (a.byte x.toNat).getMsbD 0 then 1 else 0))) s := by
  refine ts_ask ho h hop hx fun s3 ae4 hms hbm hsar hsa hxw hbs hil hro => ?_
  have hpm : Denied s3 := denied_of ae4.arch hsar hk (by have := ho.lim; omega)
  refine Ev.mod (n := 0x905) ho ae4.calm hbm hms hro (by rw [w905]; rfl)
    (fun tu ex => x905_p e ex _ (hpm.congr rfl rfl rfl)) fun tu ex hex hc5 => .now ?_
  have h2 : (s.R.setWidth 2).toNat = x.toNat % 4 := low2 h.r
  have hmem : s3.mem = a.mem := by rw [← ae4.arch]; rfl
  have hcc : (if s3.mem (memIx s3.SA) &&& bsMask s3.BS &&& 2155905152#32 = 0#32 then 0#2 else 1#2) =
      if (a.byte x.toNat).getMsbD 0 then 1 else 0 := by
    rw [hsa, hbs, ts_cc, h2, hmem]; rfl
  refine ⟨rfl, ?_, hc5.congr (by unfold memPart; rfl), hil⟩
  rw [← hcc, ← ae4.arch]
  rfl

/-- C163: TEST AND SET makes the byte at its operand address all ones and its leftmost bit before the
condition code, and changes nothing else; the instructions which follow are fetched as they are
after it. -/
theorem C163_test_and_set {e : Env} {tk : Bool} {a : Arch} {s : S} (ho : EnvOk e)
    (h : Ready e tk a s) (hia : InStore e a) (hop : opOf a.inst = 0x93#8)
    (hx : a.operand.toNat < 4 * words e) (hk : a.permits a.operand)
    (hi : InStore e a.next) (tick : Nat → Bool) (ht : ∀ i, tick i = true → tk = true) :
    ∃ n s', run e tick n s = .ok s' ∧ (Ready e tk (a.next.testAndSet a.operand.toNat) s' ∨
      Pend e tk (a.next.testAndSet a.operand.toNat) s') := by
  have h1 : (opOf a.inst).toNat = 0x93 := by rw [hop]; rfl
  rw [operand_rs (by omega)] at *
  rw [next4 (by omega) (by omega)] at *
  exact ((fetch_rx ho h (by omega) (by omega) hia.rg).bind fun s1 h2 =>
    (to_op9 ho h2 (by omega)).bind fun s2 h3 => ts_exec ho h3 h1 hx hk hi).run tick ht

/-- C163: TEST AND SET of a protected byte causes a protection interruption (code 4), and storage is
not changed but for the old PSW. The condition code is set although the instruction is interrupted. -/
theorem C163_protected {e : Env} {tk : Bool} {a b : Arch} {s : S} (ho : EnvOk e)
    (h : Ready e tk a s) (hia : InStore e a) (hop : opOf a.inst = 0x93#8)
    (hx : a.operand.toNat < 4 * words e) (hk : a.permits a.operand = false) (hm : 112 ≤ 4 * words e)
    (hkp : a.Kept)
    (hb : b = interrupt (a.next.setCC (if (a.byte a.operand.toNat).getMsbD 0 then 1 else 0)) 0x28 4 2)
    (hw : tk = false → Quiet a b) (hi : InStore e b) (tick : Nat → Bool)
    (ht : ∀ i, tick i = true → tk = true) :
    ∃ n s', run e tick n s = .ok s' ∧ (Ready e tk b s' ∨ Pend e tk b s') := by
  have h1 : (opOf a.inst).toNat = 0x93 := by rw [hop]; rfl
  rw [operand_rs (by omega)] at *
  rw [next4 (by omega) (by omega)] at *
  exact ((fetch_rx ho h (by omega) (by omega) hia.rg).bind fun s1 h2 =>
    (to_op9 ho h2 (by omega)).bind fun s2 h3 => (ts_refused ho h3 h1 hx hk).bind fun s3 h4 =>
      pgm_exec ho begins4 ⟨h4.calm, h4.arch⟩ h4.il h4.roar hkp hm hb hw hi).run tick ht

/-- At 100: `TS 107`, which changes its own next instruction. -/
def tsMem : Nat → W := fun i => if i = 0x40 then 0x93000107 else if i = 0x41 then 0x12345680 else
  if i = 27 then 0x200 else 0

example (tick : Nat → Bool) : ∃ n s', run e64 tick n (start tsMem 0 fun _ => 0) = .ok s' ∧
    ∃ b : Arch, (b.mem 0x41 = 0x123456ff ∧ b.cc = 1 ∧ b.ia = 0x104) ∧
      (Ready e64 true b s' ∨ Pend e64 true b s') := by
  obtain ⟨n, s', h1, h2⟩ := C163_test_and_set (tk := true) (a := arch0 tsMem 0 fun _ => 0) e64_ok
    (start_ready true tsMem 0 fun _ => 0) ⟨by decide, by decide⟩ (by decide) (by decide) (by decide)
    ⟨by decide, by decide⟩ tick (by simp)
  exact ⟨n, s', h1, _, by decide, h2⟩

end Verif.Cpu50
