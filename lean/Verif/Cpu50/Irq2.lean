import Verif.Cpu50.Irq
import Verif.Cpu50.Prot

/-!
# Model 2050: supervisor call, load PSW and program interruptions

From the instruction to the first instruction under the new PSW.
-/

namespace Verif.Cpu50
open Verif.S360
attribute [local irreducible] ros

/-- The wait state is not entered and the system mask allows nothing new. -/
def Quiet (a b : Arch) : Prop := b.amwp &&& 2 = 0 ∧ b.mask &&& a.mask = b.mask

/-- Before word 195: the interruption code is in `MD` and `F`. -/
theorem trap_exec {e : Env} {tk : Bool} {a b : Arch} {c : B} {ilc : BitVec 2} {s : S}
    (ho : EnvOk e) (m : Mid e tk a s) (hmd : s.MD = 0#4) (hf : s.F = c) (il : s.ILC = ilc)
    (hr : s.ROAR = 0x195) (hk : a.Kept) (hm : 112 ≤ 4 * words e)
    (hb : b = interrupt a 0x28 (c.setWidth 16) ilc) (hw : tk = false → Quiet a b)
    (hi : InStore e b) : Ev e tk (Bd e tk b) s := by
  refine Ev.plain (n := 0x195) ho m.calm hr (by rw [w195]; decide) (fun t => x195 e _ _)
    (fun t => by unfold memPart; rfl) fun t ht hc => ?_
  refine swap_exec (a := a) (p := 40#32) (c := c) (ilc := ilc) ho
    ⟨hc, congrArg (fun x : Arch => { x with key := 0 }) m.arch, rfl, ?_, il, rfl⟩
    hk hm rfl hb hw hi
  show s.MD.setWidth 8 <<< 4 ||| s.F = c
  rw [hmd, hf]
  exact BitVec.zero_or

/-- The effect of the words which begin a program interruption. -/
def Begins (e : Env) (n : Nat) (c : B) : Prop :=
  (∀ ex s, exec e (Cpu50.ros n) ex s = .ok { s with
    alu := 0#32, aob := 0#32, u := 0#8, w := c, F := c, MD := 0#4, EDST := 3#2,
    LSA := s.FN ++ s.J, ROAR := 0x195 }) ∧
  (Cpu50.ros n).tr = 0 ∧ usesStore (Cpu50.ros n) = false ∧
  plain (Cpu50.ros n) = true

theorem begins1 {e : Env} {n : Nat} (h : Cpu50.ros n = Cpu50.ros 0x182) : Begins e n 1#8 :=
  ⟨fun ex s => by rw [h]; exact x182 e ex s, by rw [h, w182], by rw [h, w182]; decide, by rw [h, w182]; decide⟩

theorem begins2 {e : Env} {n : Nat} (h : Cpu50.ros n = Cpu50.ros 0x183) : Begins e n 2#8 :=
  ⟨fun ex s => by rw [h]; exact x183 e ex s, by rw [h, w183], by rw [h, w183]; decide, by rw [h, w183]; decide⟩

theorem begins4 {e : Env} : Begins e 0x142 4#8 :=
  ⟨fun ex s => x142 e ex s, by rw [w142], by rw [w142]; decide, by rw [w142]; decide⟩

/-- Program interruption. -/
theorem pgm_exec {e : Env} {tk : Bool} {a b : Arch} {c : B} {ilc : BitVec 2} {s : S} {n : Nat}
    (ho : EnvOk e) (hn : Begins e n c) (m : Mid e tk a s) (il : s.ILC = ilc)
    (hr : s.ROAR = n) (hk : a.Kept) (hm : 112 ≤ 4 * words e)
    (hb : b = interrupt a 0x28 (c.setWidth 16) ilc) (hw : tk = false → Quiet a b)
    (hi : InStore e b) : Ev e tk (Bd e tk b) s := by
  refine Ev.plain (n := n) ho m.calm hr hn.2.2.2 (fun t => hn.1 _ _)
    (fun t => by unfold memPart; rfl) fun t ht hc => ?_
  exact trap_exec (a := a) (c := c) ho ⟨hc, m.arch⟩ rfl rfl il rfl hk hm hb hw hi

/-- Program interruption while a word is being fetched. -/
theorem pgm_acc {e : Env} {tk : Bool} {a b : Arch} {c : B} {ilc : BitVec 2} {s : S} {n : Nat}
    (ho : EnvOk e) (hn : Begins e n c) (ask : Asks e tk s) (har : archOf s = a) (il : s.ILC = ilc)
    (hr : s.ROAR = n) (hk : a.Kept) (hm : 112 ≤ 4 * words e)
    (hb : b = interrupt a 0x28 (c.setWidth 16) ilc) (hw : tk = false → Quiet a b)
    (hi : InStore e b) : Ev e tk (Bd e tk b) s := by
  refine Ev.acc (n := n) ho ask hr (by rw [hn.2.2.1, hn.2.1]; rfl) (fun t => hn.1 _ _)
    fun t ht hc => ?_
  exact trap_exec (a := a) (c := c) ho ⟨hc.congr (by unfold memPart; rfl), har⟩ rfl rfl il rfl hk hm
    hb hw hi

/-! ### Supervisor call -/

theorem svc_exec {e : Env} {tk : Bool} {a b : Arch} {i : BitVec 16} {s : S}
    (ho : EnvOk e) (h : Op0 e tk a i s) (hop : (opOf i).toNat = 0x0a) (hk : a.Kept)
    (hm : 112 ≤ 4 * words e) (hb : b = interrupt a 0x20 ((immOf i).setWidth 16) 1)
    (hw : tk = false → Quiet a b) (hi : InStore e b) : Ev e tk (Bd e tk b) s := by
  have hro := h.roar
  rw [hop] at hro
  have himm : byteOf s.M s.LB = immOf i := by rw [h.lb, byte_imm h.m1]
  refine Ev.plain (n := 0x1aa) ho h.ae.calm hro (by rw [w1aa]; decide) (fun t => x1aa e _ _)
    (fun t => by unfold memPart; rfl) fun t ht hc => ?_
  refine swap_exec (a := a) (p := 32#32) (c := immOf i) (ilc := 1) ho
    ⟨hc, congrArg (fun x : Arch => { x with key := 0 }) h.ae.arch, rfl, ?_, h.il, rfl⟩ hk (Nat.le_trans (by decide) hm) rfl hb hw hi
  exact (md_imm _).trans himm

/-! ### Operation codes without instruction -/

theorem ros_op0 : ∀ n, n < 16 → unassigned (BitVec.ofNat 8 n) = true →
    Cpu50.ros (384 ||| n <<< 2 ||| 2) = Cpu50.ros 0x182 := by
  decide +kernel

theorem ros_op4 : Cpu50.ros (1792 ||| (0x4d % 16) <<< 2) = Cpu50.ros 0x182 := by decide +kernel

theorem ros_opx : ∀ n, n < 16 → unassigned (BitVec.ofNat 8 (0x50 + n)) = true →
    Cpu50.ros (640 ||| n <<< 2 ||| 1) = Cpu50.ros 0x182 := by
  decide +kernel

theorem ros_op8 : ∀ n, n < 16 → unassigned (BitVec.ofNat 8 (0x80 + n)) = true →
    Cpu50.ros (1792 ||| n <<< 2 ||| 2) = Cpu50.ros 0x182 := by
  decide +kernel

theorem ros_op9 : ∀ n, n < 16 → unassigned (BitVec.ofNat 8 (0x90 + n)) = true →
    Cpu50.ros (2304 ||| n <<< 2 ||| 2) = Cpu50.ros 0x182 := by
  decide +kernel

theorem ros_opab : ∀ b : Bool, Cpu50.ros (0x100 ||| 10 <<< 2 ||| b.toNat) = Cpu50.ros 0x182 ∧
    Cpu50.ros (0x100 ||| 11 <<< 2 ||| b.toNat) = Cpu50.ros 0x182 := by
  decide +kernel

/-- No operation code but these groups is without instruction. -/
theorem unassigned_hi : ∀ op : BitVec 8, unassigned op = true →
    op.toNat / 16 = 0 ∨ op.toNat = 0x4d ∨ op.toNat / 16 = 5 ∨ op.toNat / 16 = 8 ∨
    op.toNat / 16 = 9 ∨ op.toNat / 16 = 10 ∨ op.toNat / 16 = 11 := by
  decide +kernel

theorem ofNat_op (op : BitVec 8) (k : Nat) (h : op.toNat / 16 = k) :
    BitVec.ofNat 8 (16 * k + op.toNat % 16) = op := by
  apply BitVec.eq_of_toNat_eq
  rw [BitVec.toNat_ofNat]
  omega

theorem next2 {a : Arch} (h : (opOf a.inst).toNat < 0x40) : a.next = { a with ia := a.ia + 2 } := by
  unfold Arch.next lenOf
  rw [if_pos h]; rfl

theorem next4 {a : Arch} (h : 0x40 ≤ (opOf a.inst).toNat) (h2 : (opOf a.inst).toNat < 0xc0) :
    a.next = { a with ia := a.ia + 4 } := by
  unfold Arch.next lenOf
  rw [if_neg (by omega), if_pos h2]; rfl

theorem len1 {op : BitVec 8} (h : op.toNat < 0x40) : lenOf op = 1 := if_pos h

theorem len2 {op : BitVec 8} (h : 0x40 ≤ op.toNat) (h2 : op.toNat < 0xc0) : lenOf op = 2 := by
  unfold lenOf
  rw [if_neg (by omega), if_pos h2]

theorem operand_rx {a : Arch} (h : (opOf a.inst).toNat < 0x80) :
    a.operand = ea { a with ia := a.ia + 4 } (dig2 a.inst)
      ((a.half (a.ia.toNat + 2)).extractLsb' 12 4) ((a.half (a.ia.toNat + 2)).extractLsb' 0 12) := by
  unfold Arch.operand indexOf
  rw [if_pos h]; rfl

theorem operand_rs {a : Arch} (h : ¬ (opOf a.inst).toNat < 0x80) :
    a.operand = ea { a with ia := a.ia + 4 } 0
      ((a.half (a.ia.toNat + 2)).extractLsb' 12 4) ((a.half (a.ia.toNat + 2)).extractLsb' 0 12) := by
  unfold Arch.operand indexOf
  rw [if_neg h]; rfl

/-- An operation code without instruction. -/
theorem operation_exec {e : Env} {tk : Bool} {a b : Arch} {s : S} (ho : EnvOk e)
    (h : Ready e tk a s) (hia : InStore e a) (hk : a.Kept) (hm : 112 ≤ 4 * words e)
    (hop : unassigned (opOf a.inst) = true)
    (hx : (opOf a.inst).toNat / 16 = 5 → Arch.within (4 * words e) 4 a.operand = true)
    (hb : b = interrupt a.next 0x28 1 (lenOf (opOf a.inst))) (hw : tk = false → Quiet a b)
    (hi : InStore e b) : Ev e tk (Bd e tk b) s := by
  have hof := fun k => ofNat_op (opOf a.inst) k
  have hlt : (opOf a.inst).toNat % 16 < 16 := Nat.mod_lt _ (by decide)
  rcases unassigned_hi _ hop with h1 | h1 | h1 | h1 | h1 | h1 | h1
  · rw [next2 (by omega), len1 (by omega)] at hb
    refine Ev.bind (fetch_rr ho h (by omega) hia.rg) fun s1 f1 => ?_
    refine Ev.bind (to_op0 ho f1 h1) fun s2 f2 => ?_
    have h2 := ros_op0 _ hlt (by
      have h3 := hof 0 h1; rw [Nat.mul_zero, Nat.zero_add] at h3; rw [h3]; exact hop)
    exact pgm_exec ho (begins1 h2) ⟨f2.ae.calm, f2.ae.arch⟩ f2.il f2.roar hk hm hb hw hi
  · rw [next4 (by omega) (by omega), len2 (by omega) (by omega)] at hb
    refine Ev.bind (fetch_rx ho h (by omega) (by omega) hia.rg) fun s1 f1 => ?_
    refine Ev.bind (to_op4 ho f1 (by omega)) fun s2 f2 => ?_
    have h2 := f2.roar
    rw [h1] at h2
    exact pgm_exec ho (begins1 ros_op4) ⟨f2.ae.calm, f2.ae.arch⟩ f2.il h2 hk hm hb hw hi
  · rw [next4 (by omega) (by omega), len2 (by omega) (by omega)] at hb
    rw [operand_rx (by omega)] at hx
    refine Ev.bind (fetch_rx ho h (by omega) (by omega) hia.rg) fun s1 f1 => ?_
    refine Ev.bind (to_opx ho f1 h1 (hx h1)) fun s2 f2 => ?_
    have h2 := ros_opx _ hlt ((congrArg unassigned (hof 5 h1)).trans hop)
    exact pgm_acc ho (begins1 h2) f2.ask f2.arch f2.il f2.roar hk hm hb hw hi
  · rw [next4 (by omega) (by omega), len2 (by omega) (by omega)] at hb
    refine Ev.bind (fetch_rx ho h (by omega) (by omega) hia.rg) fun s1 f1 => ?_
    refine Ev.bind (to_op8 ho f1 h1) fun s2 f2 => ?_
    have h2 := ros_op8 _ hlt ((congrArg unassigned (hof 8 h1)).trans hop)
    exact pgm_exec ho (begins1 h2) ⟨f2.ae.calm, f2.ae.arch⟩ f2.il f2.roar hk hm hb hw hi
  · rw [next4 (by omega) (by omega), len2 (by omega) (by omega)] at hb
    refine Ev.bind (fetch_rx ho h (by omega) (by omega) hia.rg) fun s1 f1 => ?_
    refine Ev.bind (to_op9 ho f1 h1) fun s2 f2 => ?_
    have h2 := ros_op9 _ hlt ((congrArg unassigned (hof 9 h1)).trans hop)
    exact pgm_exec ho (begins1 h2) ⟨f2.ae.calm, f2.ae.arch⟩ f2.il f2.roar hk hm hb hw hi
  · rw [next4 (by omega) (by omega), len2 (by omega) (by omega)] at hb
    refine Ev.bind (fetch_rx ho h (by omega) (by omega) hia.rg) fun s1 f1 => ?_
    have h2 := f1.roar
    rw [h1, decide_eq_false (by omega), Bool.and_false] at h2
    exact pgm_exec ho (begins1 (ros_opab s1.St.s1).1) ⟨f1.calm, f1.arch⟩ f1.ilc
      (h2.trans (by rw [Bool.toNat_false, Nat.mul_zero, Nat.zero_add])) hk hm hb hw hi
  · rw [next4 (by omega) (by omega), len2 (by omega) (by omega)] at hb
    refine Ev.bind (fetch_rx ho h (by omega) (by omega) hia.rg) fun s1 f1 => ?_
    have h2 := f1.roar
    rw [h1, decide_eq_false (by omega), Bool.and_false] at h2
    exact pgm_exec ho (begins1 (ros_opab s1.St.s1).2) ⟨f1.calm, f1.arch⟩ f1.ilc
      (h2.trans (by rw [Bool.toNat_false, Nat.mul_zero, Nat.zero_add])) hk hm hb hw hi

/-! ### Protection -/

theorem protection_exec {e : Env} {tk : Bool} {a b : Arch} {s : S} {n : Nat} (ho : EnvOk e)
    (h : Ready e tk a s) (hia : InStore e a) (hk : a.Kept) (hm : 112 ≤ 4 * words e)
    (hop : storeLen (opOf a.inst) = some n) (hx : Arch.within (4 * words e) n a.operand = true)
    (hp : a.permits a.operand = false)
    (hb : b = interrupt a.next 0x28 4 (lenOf (opOf a.inst))) (hw : tk = false → Quiet a b)
    (hi : InStore e b) : Ev e tk (Bd e tk b) s := by
  have hr : 0x40 ≤ (opOf a.inst).toNat ∧ (opOf a.inst).toNat < 0xc0 := by
    unfold storeLen at hop
    split at hop <;> first | omega | exact nomatch hop
  rw [next4 hr.1 hr.2, len2 hr.1 hr.2] at hb
  refine Ev.bind (refused_exec ho h hia hop rfl hx hp) fun s1 f1 => ?_
  exact pgm_exec ho begins4 ⟨f1.calm, f1.arch⟩ f1.il f1.roar hk hm hb hw hi

theorem and7_mod (x : W) : (x &&& 7#32 = 0#32) ↔ x.toNat % 8 = 0 := by
  have h : (x &&& 7#32).toNat = x.toNat % 8 := by
    rw [BitVec.toNat_and]; exact Nat.and_two_pow_sub_one_eq_mod x.toNat 3
  rw [← h]
  constructor
  · intro h1; rw [h1]; rfl
  · intro h1; exact BitVec.eq_of_toNat_eq h1

/-! ### Privileged instructions -/

theorem prob_of {a : Arch} {s : S} (h : archOf s = a) :
    (s.AMWP &&& 1#4 != 0#4) = a.problem := by
  have h1 : s.AMWP = a.amwp := congrArg Arch.amwp h
  rw [h1]
  unfold Arch.problem
  generalize a.amwp = x
  revert x; decide

theorem ros_priv : Cpu50.ros 0x753 = Cpu50.ros 0x183 ∧ Cpu50.ros 0x903 = Cpu50.ros 0x183 ∧
    Cpu50.ros 0x93b = Cpu50.ros 0x183 ∧ Cpu50.ros 0xf0e = Cpu50.ros 0x183 := by
  decide +kernel

/-- A privileged instruction in the problem state. -/
theorem privileged_exec {e : Env} {tk : Bool} {a b : Arch} {s : S} (ho : EnvOk e)
    (h : Ready e tk a s) (hia : InStore e a) (hk : a.Kept) (hm : 112 ≤ 4 * words e)
    (hop : privileged (opOf a.inst) = true) (hpr : a.problem = true)
    (h80 : (opOf a.inst).toNat = 0x80 → Arch.within (4 * words e) 1 a.operand = true)
    (h82 : (opOf a.inst).toNat = 0x82 → Arch.within (4 * words e) 8 a.operand = true)
    (hb : b = interrupt a.next 0x28 2 (lenOf (opOf a.inst))) (hw : tk = false → Quiet a b)
    (hi : InStore e b) : Ev e tk (Bd e tk b) s := by
  have hlim := ho.lim
  have htop := ho.top
  have hop' : (opOf a.inst).toNat ∈ [0x08, 0x09, 0x80, 0x82, 0x83, 0x9c, 0x9d, 0x9e, 0x9f] :=
    of_decide_eq_true hop
  have pr : ∀ {c : Arch} {s : S}, archOf s = c → c.amwp = a.amwp →
      (s.AMWP &&& 1#4 != 0#4) = true := fun h1 h2 => by
    rw [prob_of h1, ← hpr]; unfold Arch.problem; rw [h2]
  have rng : ∀ {n : Nat}, Arch.within (4 * words e) n a.operand = true →
      a.operand.toNat % n = 0 ∧ a.operand.toNat + n ≤ 4 * words e := fun h1 => by
    simpa [Arch.within] using h1
  have hc : (opOf a.inst).toNat = 8 ∨ (opOf a.inst).toNat = 9 ∨ (opOf a.inst).toNat = 0x80 ∨
      (opOf a.inst).toNat = 0x82 ∨ (opOf a.inst).toNat = 0x83 ∨ (opOf a.inst).toNat = 0x9c ∨
      (opOf a.inst).toNat = 0x9d ∨ (opOf a.inst).toNat = 0x9e ∨ (opOf a.inst).toNat = 0x9f := by
    simpa using hop'
  clear hop hop'
  rcases hc with h1 | h1 | h1 | h1 | h1 | h1 | h1 | h1 | h1
  · rw [next2 (by omega), len1 (by omega)] at hb
    refine Ev.bind (fetch_rr ho h (by omega) hia.rg) fun s1 f1 => ?_
    refine Ev.bind (to_op0 ho f1 (by omega)) fun s2 f2 => ?_
    have hro := f2.roar
    rw [h1] at hro
    refine Ev.plain (n := 0x1a2) ho f2.ae.calm hro (by rw [w1a2]; decide) (fun t => x1a2 e _ _)
      (fun t => by unfold memPart; rfl) fun t ht hc => ?_
    exact pgm_exec ho (n := 0x183) (begins2 rfl) ⟨hc, f2.ae.arch⟩ f2.il
      (by show 384 ||| 2 * (s2.AMWP &&& 1#4 != 0#4).toNat + 1 = _
          rw [pr f2.ae.arch rfl]; rfl) hk hm hb hw hi
  · rw [next2 (by omega), len1 (by omega)] at hb
    refine Ev.bind (fetch_rr ho h (by omega) hia.rg) fun s1 f1 => ?_
    refine Ev.bind (to_op0 ho f1 (by omega)) fun s2 f2 => ?_
    have hro := f2.roar
    rw [h1] at hro
    refine Ev.plain (n := 0x1a6) ho f2.ae.calm hro (by rw [w1a6]; decide) (fun t => x1a6 e _ _)
      (fun t => by unfold memPart; rfl) fun t ht hc => ?_
    exact pgm_exec ho (n := 0x183) (begins2 rfl) ⟨hc, f2.ae.arch⟩ f2.il
      (by show 384 ||| 2 * (s2.AMWP &&& 1#4 != 0#4).toNat + (s2.AMWP &&& 1#4 != 0#4).toNat = _
          rw [pr f2.ae.arch rfl]; rfl) hk hm hb hw hi
  · rw [next4 (by omega) (by omega), len2 (by omega) (by omega)] at hb
    have hx := rng (h80 h1)
    rw [operand_rs (by omega)] at hx
    refine Ev.bind (fetch_rx ho h (by omega) (by omega) hia.rg) fun s1 f1 => ?_
    refine Ev.bind (to_op8 ho f1 (by omega)) fun s2 f2 => ?_
    have hro := f2.roar
    rw [h1] at hro
    refine Ev.wait (n := 0x702) ho f2.ae.calm hro (by rw [w702]; decide) (by rw [w702]; decide)
      (fun tu sa ex => x702 e _ _) fun tu sa ex hex hc => ?_
    refine pgm_acc ho (n := 0x753) (begins2 ros_priv.1) ⟨rfl, hc.ib, rfl, ?_, ?_, hc.qt⟩ f2.ae.arch
      f2.il ?_ hk hm hb hw hi
    · show (s2.R &&& 16777215#32).toNat ≤ _
      rw [f2.r]
      exact Nat.le_of_lt_succ (Nat.lt_of_lt_of_le (Nat.lt_add_of_pos_right (by decide))
        (hx.2.trans htop.ge))
    · intro h2; rw [show _ = _ from hc.ud] at h2; cases h2
    · show 1872 ||| 2 * (s2.AMWP &&& 1#4 != 0#4).toNat + (s2.AMWP &&& 1#4 != 0#4).toNat = _
      rw [pr f2.ae.arch rfl]; rfl
  · rw [next4 (by omega) (by omega), len2 (by omega) (by omega)] at hb
    have hx := rng (h82 h1)
    rw [operand_rs (by omega)] at hx
    refine Ev.bind (fetch_rx ho h (by omega) (by omega) hia.rg) fun s1 f1 => ?_
    refine Ev.bind (to_op8 ho f1 (by omega)) fun s2 f2 => ?_
    have hro := f2.roar
    rw [h1] at hro
    have h7 : s2.R &&& 16777215#32 &&& 7#32 = 0#32 := by
      rw [f2.r]; exact (and7_mod _).2 hx.1
    refine Ev.wait (n := 0x70a) ho f2.ae.calm hro (by rw [w70a]; decide) (by rw [w70a]; decide)
      (fun tu sa ex => x70a e _ _) fun tu sa ex hex hc => ?_
    refine pgm_acc ho (n := 0x753) (begins2 ros_priv.1) ⟨?_, hc.ib, rfl, ?_, ?_, hc.qt⟩ f2.ae.arch
      f2.il ?_ hk hm hb hw hi
    · show (s2.initMem || s2.R &&& 16777215#32 &&& 7#32 == 0#32) = true
      rw [h7]; exact Bool.or_true _
    · show (s2.R &&& 16777215#32).toNat ≤ _
      rw [f2.r]
      exact Nat.le_of_lt_succ (Nat.lt_of_lt_of_le (Nat.lt_add_of_pos_right (by decide))
        (hx.2.trans htop.ge))
    · intro h2; rw [show _ = _ from hc.ud] at h2; cases h2
    · show (if s2.R &&& 16777215#32 &&& 7#32 = 0#32 then
        1872 ||| 2 * (s2.AMWP &&& 1#4 != 0#4).toNat + 1 else 450) = _
      rw [if_pos h7, pr f2.ae.arch rfl]; rfl
  · rw [next4 (by omega) (by omega), len2 (by omega) (by omega)] at hb
    refine Ev.bind (fetch_rx ho h (by omega) (by omega) hia.rg) fun s1 f1 => ?_
    refine Ev.bind (to_op8 ho f1 (by omega)) fun s2 f2 => ?_
    have hro := f2.roar
    rw [h1] at hro
    refine Ev.plain (n := 0x70e) ho f2.ae.calm hro (by rw [w70e]; decide) (fun t => x70e e _ _)
      (fun t => by unfold memPart; rfl) fun t ht hc => ?_
    exact pgm_exec ho (n := 0xf0e) (begins2 ros_priv.2.2.2) ⟨hc, f2.ae.arch⟩ f2.il
      (by show 3852 ||| 2 * (s2.AMWP &&& 1#4 != 0#4).toNat = _
          rw [pr f2.ae.arch rfl]; rfl) hk hm hb hw hi
  · rw [next4 (by omega) (by omega), len2 (by omega) (by omega)] at hb
    refine Ev.bind (fetch_rx ho h (by omega) (by omega) hia.rg) fun s1 f1 => ?_
    refine Ev.bind (to_op9 ho f1 (by omega)) fun s2 f2 => ?_
    have hro := f2.roar
    rw [h1] at hro
    refine Ev.plain (n := 0x932) ho f2.ae.calm hro (by rw [w932]; decide) (fun t => x932 e _ _)
      (fun t => by unfold memPart; rfl) fun t ht hc => ?_
    exact pgm_exec ho (n := 0x903) (begins2 ros_priv.2.1) ⟨hc, f2.ae.arch⟩ f2.il
      (by show 2304 ||| 2 * (s2.AMWP &&& 1#4 != 0#4).toNat + 1 = _
          rw [pr f2.ae.arch rfl]; rfl) hk hm hb hw hi
  · rw [next4 (by omega) (by omega), len2 (by omega) (by omega)] at hb
    refine Ev.bind (fetch_rx ho h (by omega) (by omega) hia.rg) fun s1 f1 => ?_
    refine Ev.bind (to_op9 ho f1 (by omega)) fun s2 f2 => ?_
    have hro := f2.roar
    rw [h1] at hro
    refine Ev.plain (n := 0x936) ho f2.ae.calm hro (by rw [w936]; decide) (fun t => x936 e _ _)
      (fun t => by unfold memPart; rfl) fun t ht hc => ?_
    exact pgm_exec ho (n := 0x903) (begins2 ros_priv.2.1) ⟨hc, f2.ae.arch⟩ f2.il
      (by show 2304 ||| 2 * (s2.AMWP &&& 1#4 != 0#4).toNat + (s2.AMWP &&& 1#4 != 0#4).toNat = _
          rw [pr f2.ae.arch rfl]; rfl) hk hm hb hw hi
  · rw [next4 (by omega) (by omega), len2 (by omega) (by omega)] at hb
    refine Ev.bind (fetch_rx ho h (by omega) (by omega) hia.rg) fun s1 f1 => ?_
    refine Ev.bind (to_op9 ho f1 (by omega)) fun s2 f2 => ?_
    have hro := f2.roar
    rw [h1] at hro
    refine Ev.plain (n := 0x93a) ho f2.ae.calm hro (by rw [w93a]; decide) (fun t => x93a e _ _)
      (fun t => by unfold memPart; rfl) fun t ht hc => ?_
    exact pgm_exec ho (n := 0x93b) (begins2 ros_priv.2.2.1) ⟨hc, f2.ae.arch⟩ f2.il
      (by show 2360 ||| 2 * (s2.AMWP &&& 1#4 != 0#4).toNat + 1 = _
          rw [pr f2.ae.arch rfl]; rfl) hk hm hb hw hi
  · rw [next4 (by omega) (by omega), len2 (by omega) (by omega)] at hb
    refine Ev.bind (fetch_rx ho h (by omega) (by omega) hia.rg) fun s1 f1 => ?_
    refine Ev.bind (to_op9 ho f1 (by omega)) fun s2 f2 => ?_
    have hro := f2.roar
    rw [h1] at hro
    refine Ev.plain (n := 0x93e) ho f2.ae.calm hro (by rw [w93e]; decide) (fun t => x93e e _ _)
      (fun t => by unfold memPart; rfl) fun t ht hc => ?_
    exact pgm_exec ho (n := 0x93b) (begins2 ros_priv.2.2.1) ⟨hc, f2.ae.arch⟩ f2.il
      (by show 2360 ||| 2 * (s2.AMWP &&& 1#4 != 0#4).toNat + 1 = _
          rw [pr f2.ae.arch rfl]; rfl) hk hm hb hw hi

/-! ### Load PSW -/

theorem lpsw_exec {e : Env} {tk : Bool} {a b : Arch} {s : S} (ho : EnvOk e)
    (h : Ready e tk a s) (hia : InStore e a) (h1 : (opOf a.inst).toNat = 0x82)
    (hpr : a.problem = false) (hx : Arch.within (4 * words e) 8 a.operand = true)
    (hb : b = loadPsw a.next (a.mem (a.operand.toNat / 4)) (a.mem ((a.operand.toNat + 4) / 4)))
    (hw : tk = false → Quiet a b) (hi : InStore e b) : Ev e tk (Bd e tk b) s := by
  have hlim := ho.lim
  have htop := ho.top
  rw [next4 (by omega) (by omega)] at hb
  replace hx : a.operand.toNat % 8 = 0 ∧ a.operand.toNat + 8 ≤ 4 * words e := by
    simpa [Arch.within] using hx
  rw [operand_rs (by omega)] at hx hb
  refine Ev.bind (fetch_rx ho h (by omega) (by omega) hia.rg) fun s1 f1 => ?_
  refine Ev.bind (to_op8 ho f1 (by omega)) fun s2 f2 => ?_
  have hro := f2.roar
  rw [h1] at hro
  have h7 : s2.R &&& 16777215#32 &&& 7#32 = 0#32 := by
    rw [f2.r]; exact (and7_mod _).2 hx.1
  refine Ev.wait (n := 0x70a) ho f2.ae.calm hro (by rw [w70a]; decide) (by rw [w70a]; decide)
    (fun tu sa ex => x70a e _ _) fun tu sa ex hex hc => ?_
  refine load_exec ho (a := { a with ia := a.ia + 4 }) ⟨?_, hc.ib, rfl, ?_, ?_, hc.qt⟩ f2.ae.arch
    f2.r f2.r hx.2 ?_ hb hw hi ?_
  · show (s2.initMem || s2.R &&& 16777215#32 &&& 7#32 == 0#32) = true
    rw [h7]; exact Bool.or_true _
  · show (s2.R &&& 16777215#32).toNat ≤ _
    rw [f2.r]
    exact Nat.le_of_lt_succ (Nat.lt_of_lt_of_le (Nat.lt_add_of_pos_right (by decide))
      (hx.2.trans htop.ge))
  · intro h2; rw [show _ = _ from hc.ud] at h2; cases h2
  · show s2.F.toNat < 16
    rw [f2.f]; decide
  · show (if s2.R &&& 16777215#32 &&& 7#32 = 0#32 then
      1872 ||| 2 * (s2.AMWP &&& 1#4 != 0#4).toNat + 1 else 450) = _
    have hp' : ({ a with ia := a.ia + 4 } : Arch).problem = false := hpr
    rw [if_pos h7, prob_of f2.ae.arch, hp']; rfl

end Verif.Cpu50
