import Verif.Cpu50.Safe

/-!
# Model 2050: SET STORAGE KEY and INSERT STORAGE KEY

What the two instructions should do is stated here (`setKey`, `insertKey`) from the *Principles of
Operation*; what the microprogram does is proved below.
-/

namespace Verif.S360

/-- The address of the block, the low 24 bits of the second register. -/
def blockAddr (a : Arch) (i : BitVec 16) : Nat := (a.gr (dig2 i)).toNat % 2 ^ 24

/-- SSK: bits 24-27 of the first register become the key of the addressed block of 2048 bytes. -/
def setKey (a : Arch) (i : BitVec 16) : Arch :=
  { a with keys := fun b =>
      if b = blockAddr a i / 2048 then BitVec.ofNat 8 ((a.gr (dig1 i)).toNat / 16 % 16)
      else a.keys b }

/-- ISK: the key becomes bits 24-27 of the first register, bits 28-31 become zero. -/
def insertKey (a : Arch) (i : BitVec 16) : Arch :=
  a.put (dig1 i) ((a.gr (dig1 i)).extractLsb' 8 24 ++
    BitVec.ofNat 8 ((a.keys (blockAddr a i / 2048)).toNat * 16))

end Verif.S360

namespace Verif.Cpu50
open Verif.S360

/-! ### Addresses -/

theorem addr24 (x : W) : (x &&& 16777215#32).toNat = x.toNat % 2 ^ 24 := by
  rw [BitVec.toNat_and]; exact Nat.and_two_pow_sub_one_eq_mod x.toNat 24

theorem block_of (x : W) : ((x &&& 16777215#32) >>> 11).toNat = x.toNat % 2 ^ 24 / 2048 := by
  rw [BitVec.toNat_ushiftRight, addr24, Nat.shiftRight_eq_div_pow]

theorem low_nib (x : W) : ((BitVec.setWidth 8 x : B) &&& 15#8 == 0#8) = decide (x.toNat % 16 = 0) := by
  have h1 : ((BitVec.setWidth 8 x : B) &&& 15#8).toNat = x.toNat % 16 := by
    rw [BitVec.toNat_and, BitVec.toNat_setWidth, show (15#8).toNat = 2 ^ 4 - 1 from rfl,
      Nat.and_two_pow_sub_one_eq_mod]
    omega
  by_cases h : x.toNat % 16 = 0
  · rw [decide_eq_true h, beq_iff_eq]
    apply BitVec.eq_of_toNat_eq; rw [h1, h]; rfl
  · rw [decide_eq_false h, beq_eq_false_iff_ne]
    intro h2
    apply h
    rw [← h1, h2]; rfl

/-- A waiting word comes to the quarter in which it is carried out. -/
theorem Ev.ripe {e : Env} {tk : Bool} {s : S} (ho : EnvOk e) (hc : Calm e tk s) {n : Nat}
    (hr : s.ROAR = n) (hw : (interlocked (Cpu50.ros n).tr || usesStore (Cpu50.ros n)) = true) :
    Ev e tk (fun s1 => Calm e tk s1 ∧ (s1.ms = .r3 ∨ s1.ms = .w1) ∧ s1.R = s.R ∧ s1.ROAR = n) s := by
  have held : ∀ s1 : S, Calm e tk s1 → s1.ms = .r1 ∨ s1.ms = .r2 → s1.ROAR = n → ∀ t,
      cycle e t s1 = .ok (Cpu50.bg t s1) := by
    intro s1 h1 h2 h3 t
    exact cycle_held e t s1 _ (mem_wait h1 _ (by rw [h3, ho.ros]; exact hw) h2 t)
  cases hm : s.ms with
  | r1 =>
    refine .step (fun t => Cpu50.bg t s) (fun t _ => held s hc (.inl hm) hr t) fun t ht => ?_
    have m1 : (Cpu50.bg t s).ms = .r2 := by show bgMs s.ms = _; rw [hm]; rfl
    refine .step (fun t1 => Cpu50.bg t1 (Cpu50.bg t s))
      (fun t1 _ => held _ (hc.bg t ht) (.inr m1) hr t1) fun t1 ht1 => .now ?_
    refine ⟨(hc.bg t ht).bg t1 ht1, .inl ?_, rfl, hr⟩
    show bgMs (Cpu50.bg t s).ms = _; rw [m1]; rfl
  | r2 =>
    refine .step (fun t => Cpu50.bg t s) (fun t _ => held s hc (.inr hm) hr t) fun t ht => .now ?_
    refine ⟨hc.bg t ht, .inl ?_, rfl, hr⟩
    show bgMs s.ms = _; rw [hm]; rfl
  | r3 => exact .now ⟨hc, .inl hm, rfl, hr⟩
  | w1 => exact .now ⟨hc, .inr hm, rfl, hr⟩
  | zero => exact absurd hm hc.nz

/-- A further reference is asked for while the storage cycle has just begun. -/
theorem Ev.pend {e : Env} {tk : Bool} {P : S → Prop} {s : S} (ho : EnvOk e) (hm : s.ms = .r1)
    (im : s.initMem = true) (ib : s.initBump = false) (ud : s.updD = false) (hb : s.bump = false)
    (rg : memIx s.SA < words e) (sr : s.SAR.toNat ≤ e.memMax.toNat)
    (qt : tk = false → exc s = false)
    (k : ∀ tu sdr, Asks e tk { s with timUp := tu, SDR := sdr, ms := .w1 } →
      Ev e tk P { s with timUp := tu, SDR := sdr, ms := .w1 }) : Ev e tk P s := by
  refine .step (fun t => { s with timUp := s.timUp || (t && !s.man), ms := .r2 }) (fun t _ => ?_)
    fun t ht => ?_
  · refine cycle_held e t s _ ?_
    simp [memCycle, tickStep, hm, im]
  have q1 : tk = false → exc { s with timUp := s.timUp || (t && !s.man), ms := .r2 } = false :=
    exc_tick qt ht
  refine .step (fun t1 => { s with
    timUp := s.timUp || (t && !s.man) || (t1 && !s.man), SDR := s.mem (memIx s.SA), ms := .r3 })
    (fun t1 _ => ?_) fun t1 ht1 => ?_
  · refine cycle_held e t1 _ _ ?_
    simp [memCycle, tickStep, im, ud, fetch, hb, memRead, rg, Out.bind]
  have q2 := exc_tick q1 ht1
  refine .step (fun t2 => { s with
    timUp := s.timUp || (t && !s.man) || (t1 && !s.man) || (t2 && !s.man),
    SDR := s.mem (memIx s.SA), ms := .w1 })
    (fun t2 _ => ?_) fun t2 ht2 => ?_
  · refine cycle_held e t2 _ _ ?_
    simp [memCycle, tickStep, im]
  have q3 := exc_tick q2 ht2
  exact k _ _ ⟨im, ib, rfl, sr, (fun h => by rw [show _ = _ from ud] at h; cases h), q3⟩

/-! ### SSK -/

theorem key_bits : ∀ b : B, (b &&& 240#8 ||| mvfR 0#3 b 0#8) &&& 15#8 = b >>> 4 := by decide +kernel

theorem byte3_shift (x : W) : byteOf x 3#2 >>> 4 = BitVec.ofNat 8 (x.toNat / 16 % 16) := by
  apply BitVec.eq_of_toNat_eq
  rw [BitVec.toNat_ushiftRight, Nat.shiftRight_eq_div_pow, byteOf, BitVec.toNat_setWidth,
    BitVec.toNat_ushiftRight, BitVec.toNat_ofNat]
  simp
  omega

/-- The word which sets the key is reached with the address in `R` and the key in `F`. -/
theorem ssk_begin {e : Env} {tk : Bool} {a : Arch} {s : S} (ho : EnvOk e) (h : Ready e tk a s)
    (hia : InStore e a) (hop : (opOf a.inst).toNat = 8) (hsv : a.problem = false) :
    Ev e tk (fun s1 => AtEnd e tk { a with ia := a.ia + 2 } s1 ∧ s1.ILC = 1 ∧
      s1.R = a.gr (dig2 a.inst) ∧
      s1.F = BitVec.ofNat 8 ((a.gr (dig1 a.inst)).toNat / 16 % 16) ∧
      s1.ROAR = if blockAddr a a.inst % 16 = 0 then 0x1c9 else 0x1c8) s := by
  refine Ev.bind (fetch_rr ho h (by omega) hia.rg) fun s1 f1 => ?_
  refine Ev.bind (to_op0 ho f1 (by omega)) fun s2 f2 => ?_
  have hro := f2.roar
  rw [hop] at hro
  refine Ev.plain (n := 0x1a2) ho f2.ae.calm hro (by rw [w1a2]; decide) (fun t => x1a2 e _ _)
    (fun t => by unfold memPart; rfl) fun t ht hc => ?_
  have hp : (s2.AMWP &&& 1#4 != 0#4) = false := by
    rw [prob_of f2.ae.arch, ← hsv]; rfl
  refine Ev.plain (n := 0x181) ho hc (by
      show 384 ||| 2 * (s2.AMWP &&& 1#4 != 0#4).toNat + 1 = _
      rw [hp]; rfl) (by rw [w181]; decide) (fun t => x181 e _ _)
    (fun t => by unfold memPart; rfl) fun t1 ht1 hc1 => .now ?_
  have hl : s2.LS (s2.FN ++ s2.MD) = a.gr (dig1 a.inst) := by
    rw [f2.fn, f2.md, gr_of f2.ae.arch]
  have hF : (byteOf (s2.LS (s2.FN ++ s2.MD)) 3#2 &&& 240#8 |||
      mvfR 0#3 (byteOf (s2.LS (s2.FN ++ s2.MD)) 3#2) 0#8) &&& 15#8 =
      BitVec.ofNat 8 ((a.gr (dig1 a.inst)).toNat / 16 % 16) := by
    rw [key_bits, hl, byte3_shift]
  refine ⟨f2.ae.updF hc1 f2.ae.arch rfl rfl ?_ rfl rfl rfl rfl, f2.il, f2.r, hF, ?_⟩
  · show (_ &&& 15#8 : B).toNat < 16
    exact and15_lt _
  · show 456 ||| ((BitVec.setWidth 8 s2.R : B) &&& 15#8 == 0#8).toNat = _
    rw [low_nib, f2.r]
    unfold blockAddr
    have : (a.gr (dig2 a.inst)).toNat % 2 ^ 24 % 16 = (a.gr (dig2 a.inst)).toNat % 16 := by omega
    rw [this]
    by_cases h : (a.gr (dig2 a.inst)).toNat % 16 = 0
    · rw [decide_eq_true h, if_pos h]; rfl
    · rw [decide_eq_false h, if_neg h]; rfl

/-- The key is set in two steps, the second address is twelve bytes on. -/
theorem add12 (x : W) (h : x.toNat % 16 = 0) :
    (12#32 + x).toNat % 2 ^ 24 = x.toNat % 2 ^ 24 + 12 := by
  have := x.isLt
  rw [BitVec.toNat_add]
  simp
  omega

theorem arch_key {a : Arch} {s s' : S} {n1 n2 b : Nat} {f v : B} (h : archOf s = a)
    (h2 : n2 = b) (h1 : n1 = b) (hf : f = v)
    (mp : s'.MP = fun j => if j = n2 then f else if j = n1 then f else s.MP j)
    (ls : s'.LS = s.LS) (cc : s'.CC = s.CC) (pm : s'.PMASK = s.PMASK) (ia : s'.IA = s.IA)
    (mem : s'.mem = s.mem) (key : s'.KEY = s.KEY) (am : s'.AMWP = s.AMWP)
    (mk : s'.MASK = s.MASK) :
    archOf s' = { a with keys := fun j => if j = b then v else a.keys j } := by
  subst h h2 hf
  subst h1
  simp only [archOf, ls, cc, pm, ia, mem, mp, key, am, mk]
  congr 1
  funext j
  split <;> rfl

/-- SSK in the supervisor state, with an address in storage. -/
theorem ssk_exec {e : Env} {tk : Bool} {a : Arch} {s : S} (ho : EnvOk e) (h : Ready e tk a s)
    (hia : InStore e a) (hop : (opOf a.inst).toNat = 8) (hsv : a.problem = false)
    (hal : blockAddr a a.inst % 16 = 0) (hst : blockAddr a a.inst + 12 < 4 * words e)
    (hi : InStore e { a with ia := a.ia + 2 }) :
    Ev e tk (Bd e tk (setKey { a with ia := a.ia + 2 } a.inst)) s := by
  have hlim := ho.lim
  have htop := ho.top
  refine Ev.bind (ssk_begin ho h hia hop hsv) fun s1 f => ?_
  obtain ⟨f1, -, f3, f4, f5⟩ := f
  rw [if_pos hal] at f5
  have hx : s1.R.toNat % 2 ^ 24 = blockAddr a a.inst := by rw [f3]; rfl
  have hx16 : s1.R.toNat % 16 = 0 := by omega
  have hx2 : (12#32 + s1.R).toNat % 2 ^ 24 = blockAddr a a.inst + 12 := by rw [add12 _ hx16, hx]
  have k1 : ((s1.R &&& 16777215#32) >>> 11).toNat = blockAddr a a.inst / 2048 := by
    rw [block_of, hx]
  have k2 : ((12#32 + s1.R &&& 16777215#32) >>> 11).toNat = blockAddr a a.inst / 2048 := by
    rw [block_of, hx2]; omega
  refine Ev.wait (n := 0x1c9) ho f1.calm f5 (by rw [w1c9]; decide) (by rw [w1c9]; decide)
    (fun tu sa ex => (x1c9 e ex _).trans (if_pos (by rw [k1]; omega))) fun tu sa ex hex hc => ?_
  refine Ev.acc (n := 0x1bc) ho ⟨rfl, hc.ib, rfl, ?_, ?_, hc.qt⟩ rfl (by rw [w1bc]; decide)
    (fun t => (x1bc e _ _).trans (if_pos (by
      show ((12#32 + s1.R &&& 16777215#32) >>> 11).toNat < 256
      rw [k2]; omega))) fun t ht hc1 => ?_
  · show (s1.R &&& 16777215#32).toNat ≤ _
    rw [addr24, hx]; omega
  · intro h2; rw [show _ = _ from hc.ud] at h2; cases h2
  refine Ev.pend ho rfl rfl rfl rfl rfl ?_ ?_ hc1.qt fun tu2 sdr ask => ?_
  · show memIx (s1.R &&& 16777215#32 &&& 0x3ffff) < _
    rw [memIx_and, addr24, hx]; omega
  · show (12#32 + s1.R &&& 16777215#32).toNat ≤ _
    rw [addr24, hx2]; omega
  refine Ev.acc (n := 0x92f) ho ask rfl (by rw [w92f]; decide) (fun t => x92f e _ _)
    fun t3 ht3 hc3 => ?_
  have hc4 := hc3.congr (s' := { Cpu50.acc t3 _ with
    alu := 0#32, aob := 0#32, u := 0#8, w := 0#8, EDST := 3#2, LSA := s1.FN ++ s1.J, ROAR := 0x197 })
    (by unfold memPart; rfl)
  refine end_a ho (n := 0x197) (a := setKey { a with ia := a.ia + 2 } a.inst) ⟨hc4, ?_, ?_, rfl, ?_⟩
    (hi.same rfl) rfl (by rw [w197, w144])
  · exact arch_key f1.arch k2 k1 f4 rfl rfl rfl rfl rfl rfl rfl rfl rfl
  · show s1.F.toNat < 16
    exact f1.f
  · intro h1 h2
    refine f1.odd h1 ?_
    have key : ∀ a u b c : Bool, u = false → ((a || (u && b)) || (false && c)) = false →
        a = false := by decide
    exact key _ s1.updD _ _ f1.calm.ud h2

/-- SSK with an address which is not a multiple of 16: specification. -/
theorem ssk_spec {e : Env} {tk : Bool} {a b : Arch} {s : S} (ho : EnvOk e) (h : Ready e tk a s)
    (hia : InStore e a) (hop : (opOf a.inst).toNat = 8) (hsv : a.problem = false)
    (hal : blockAddr a a.inst % 16 ≠ 0) (hk : a.Kept) (hm : 112 ≤ 4 * words e)
    (hb : b = interrupt a.next 0x28 6 1) (hw : tk = false → Quiet a b) (hi : InStore e b) :
    Ev e tk (Bd e tk b) s := by
  refine Ev.bind (ssk_begin ho h hia hop hsv) fun s1 f => ?_
  obtain ⟨f1, f2, -, -, f5⟩ := f
  rw [if_neg hal] at f5
  rw [next2 (by omega)] at hb
  exact pgm_exec ho (n := 0x1c8) (c := 6#8) ⟨fun ex s => x1c8 e ex s, by rw [w1c8],
    by rw [w1c8]; decide, by rw [w1c8]; decide⟩ ⟨f1.calm, f1.arch⟩ f2 f5 hk hm hb hw hi

/-- SSK with an address of 512K or more: the simulator changes a storage key it does not have. -/
theorem ssk_oob {e : Env} {tk : Bool} {a : Arch} {s : S} (ho : EnvOk e) (h : Ready e tk a s)
    (hia : InStore e a) (hop : (opOf a.inst).toNat = 8) (hsv : a.problem = false)
    (hal : blockAddr a a.inst % 16 = 0) (hbig : 0x80000 ≤ blockAddr a a.inst) :
    Ev e tk (fun s1 => ∀ t, cycle e t s1 = .oob) s := by
  refine Ev.bind (ssk_begin ho h hia hop hsv) fun s1 f => ?_
  obtain ⟨f1, -, f3, -, f5⟩ := f
  rw [if_pos hal] at f5
  refine Ev.bind (Ev.ripe ho f1.calm f5 (by rw [w1c9]; decide)) fun s2 g => .now ?_
  obtain ⟨g1, g2, g3, g4⟩ := g
  intro t
  have hgo := mem_go g1 (e.ros s2.ROAR) (by rw [g4, ho.ros, w1c9]; decide) g2 t
  rw [cycle_run e t s2 _ hgo, g4, ho.ros, x1c9]
  refine if_neg ?_
  show ¬ ((s2.R &&& 16777215#32) >>> 11).toNat < 256
  rw [block_of, g3, f3]
  show ¬ blockAddr a a.inst / 2048 < 256
  omega

/-! ### ISK -/

theorem isk_begin {e : Env} {tk : Bool} {a : Arch} {s : S} (ho : EnvOk e) (h : Ready e tk a s)
    (hia : InStore e a) (hop : (opOf a.inst).toNat = 9) (hsv : a.problem = false) :
    Ev e tk (fun s1 => AtEnd e tk { a with ia := a.ia + 2 } s1 ∧ s1.ILC = 1 ∧
      s1.R = a.gr (dig2 a.inst) ∧ s1.L = a.gr (dig1 a.inst) ∧ s1.mvf = 0#3 ∧ s1.FN = 3#2 ∧
      s1.MD = dig1 a.inst ∧
      (s1.w &&& 15#8 == 0#8) = decide (blockAddr a a.inst % 16 = 0) ∧ s1.ROAR = 0x180) s := by
  refine Ev.bind (fetch_rr ho h (by omega) hia.rg) fun s1 f1 => ?_
  refine Ev.bind (to_op0 ho f1 (by omega)) fun s2 f2 => ?_
  have hro := f2.roar
  rw [hop] at hro
  refine Ev.plain (n := 0x1a6) ho f2.ae.calm hro (by rw [w1a6]; decide) (fun t => x1a6 e _ _)
    (fun t => by unfold memPart; rfl) fun t ht hc => .now ?_
  have hp : (s2.AMWP &&& 1#4 != 0#4) = false := by
    rw [prob_of f2.ae.arch, ← hsv]; rfl
  refine ⟨f2.ae.upd hc f2.ae.arch rfl rfl rfl rfl rfl rfl rfl, f2.il, f2.r, ?_, rfl, f2.fn, f2.md,
    ?_, ?_⟩
  · show s2.LS (s2.FN ++ s2.MD) = _
    rw [f2.fn, f2.md, gr_of f2.ae.arch]
  · show ((BitVec.setWidth 8 s2.R : B) &&& 15#8 == 0#8) = _
    rw [low_nib, f2.r]
    unfold blockAddr
    rw [show (a.gr (dig2 a.inst)).toNat % 2 ^ 24 % 16 = (a.gr (dig2 a.inst)).toNat % 16 by omega]
  · show 384 ||| 2 * (s2.AMWP &&& 1#4 != 0#4).toNat + (s2.AMWP &&& 1#4 != 0#4).toNat = _
    rw [hp]; rfl

/-- ISK with an address of 512K or more: the simulator reads a storage key it does not have. -/
theorem isk_oob {e : Env} {tk : Bool} {a : Arch} {s : S} (ho : EnvOk e) (h : Ready e tk a s)
    (hia : InStore e a) (hop : (opOf a.inst).toNat = 9) (hsv : a.problem = false)
    (hbig : 0x80000 ≤ blockAddr a a.inst) :
    Ev e tk (fun s1 => ∀ t, cycle e t s1 = .oob) s := by
  refine Ev.bind (isk_begin ho h hia hop hsv) fun s1 f => ?_
  obtain ⟨f1, -, f3, -, -, -, -, -, f5⟩ := f
  refine Ev.bind (Ev.ripe ho f1.calm f5 (by rw [w180]; decide)) fun s2 g => .now ?_
  obtain ⟨g1, g2, g3, g4⟩ := g
  intro t
  have hgo := mem_go g1 (e.ros s2.ROAR) (by rw [g4, ho.ros, w180]; decide) g2 t
  rw [cycle_run e t s2 _ hgo, g4, ho.ros, x180]
  refine if_neg ?_
  show ¬ ((s2.R &&& 16777215#32) >>> 11).toNat < 256
  rw [block_of, g3, f3]
  show ¬ blockAddr a a.inst / 2048 < 256
  omega

theorem isk_byte (d : BitVec 4) (f : B) :
    mvfL 0#3 (BitVec.setWidth 8 d <<< 4 ||| f) 0#8 = BitVec.ofNat 8 (f.toNat * 16) := by
  have key : ∀ (d : BitVec 4) (f : B),
      mvfL 0#3 (BitVec.setWidth 8 d <<< 4 ||| f) 0#8 = f <<< 4 := by decide +kernel
  rw [key]
  apply BitVec.eq_of_toNat_eq
  rw [BitVec.toNat_shiftLeft, BitVec.toNat_ofNat, Nat.shiftLeft_eq]

/-- ISK in the supervisor state, with an address in storage. -/
theorem isk_exec {e : Env} {tk : Bool} {a : Arch} {s : S} (ho : EnvOk e) (h : Ready e tk a s)
    (hia : InStore e a) (hop : (opOf a.inst).toNat = 9) (hsv : a.problem = false)
    (hal : blockAddr a a.inst % 16 = 0) (hst : blockAddr a a.inst < 4 * words e)
    (hkey : (a.keys (blockAddr a a.inst / 2048)).toNat < 16)
    (hi : InStore e { a with ia := a.ia + 2 }) :
    Ev e tk (Bd e tk (insertKey { a with ia := a.ia + 2 } a.inst)) s := by
  have hlim := ho.lim
  have htop := ho.top
  refine Ev.bind (isk_begin ho h hia hop hsv) fun s1 f => ?_
  obtain ⟨f1, -, f3, f4, f5, f6, f7, f8, f9⟩ := f
  rw [decide_eq_true hal] at f8
  have hx : s1.R.toNat % 2 ^ 24 = blockAddr a a.inst := by rw [f3]; rfl
  have k1 : ((s1.R &&& 16777215#32) >>> 11).toNat = blockAddr a a.inst / 2048 := by
    rw [block_of, hx]
  have hmp : s1.MP = a.keys := congrArg Arch.keys f1.arch
  refine Ev.wait (n := 0x180) ho f1.calm f9 (by rw [w180]; decide) (by rw [w180]; decide)
    (fun tu sa ex => (x180 e ex _).trans (if_pos (by rw [k1]; omega))) fun tu sa ex hex hc => ?_
  refine Ev.acc (n := 0x1ca) ho ⟨rfl, hc.ib, rfl, ?_, ?_, hc.qt⟩ (by
      show 456 ||| 2 * (s1.w &&& 15#8 == 0#8).toNat = _
      rw [f8]; rfl) (by rw [w1ca]; decide)
    (fun t => x1ca e _ _) fun t ht hc1 => ?_
  · show (s1.R &&& 16777215#32).toNat ≤ _
    rw [addr24, hx]; omega
  · intro h2; rw [show _ = _ from hc.ud] at h2; cases h2
  refine Ev.plain (n := 0x127) ho (hc1.congr (by unfold memPart; rfl)) rfl (by rw [w127]; decide)
    (fun t => (x127 e _ _).trans (if_pos (by
      show ((s1.R &&& 16777215#32) >>> 11).toNat < 256
      rw [k1]; omega)))
    (fun t => by unfold memPart; rfl) fun t2 ht2 hc2 => ?_
  refine Ev.plain (n := 0x12a) ho hc2 rfl (by rw [w12a]; decide) (fun t => x12a e _ _)
    (fun t => by unfold memPart; rfl) fun t3 ht3 hc3 => ?_
  have hae := f1.updF hc3 f1.arch rfl rfl (by
      show (s1.MP ((s1.R &&& 16777215#32) >>> 11).toNat).toNat < 16
      rw [k1, hmp]; exact hkey) (f1.iva.symm) (by
      have key : ∀ a u b : Bool, u = false → (a || (u && b)) = a := by decide
      exact key _ s1.updD _ f1.calm.ud) rfl rfl
  refine Ev.wait (n := 0x12b) ho hc3 rfl (by rw [w12b]; decide)
    (by rw [w12b]; decide) (fun tu sa ex => x12b e _ _) fun tu5 sa5 ex5 hex5 hc5 => .now ?_
  refine end_c ho hae hi hex5 hc5.qt rfl ?_ rfl rfl rfl rfl rfl rfl rfl rfl rfl rfl
  refine arch_put f1.arch f6 f7 (congrArg (lsPut s1.LS (s1.FN ++ s1.MD)) ?_) rfl rfl rfl rfl rfl
    rfl rfl rfl
  show putByte s1.L 3#2 (mvfL s1.mvf (BitVec.setWidth 8 s1.MD <<< 4 |||
    s1.MP ((s1.R &&& 16777215#32) >>> 11).toNat) 0#8) = _
  rw [f5, isk_byte, putByte3, f4, k1, hmp]; rfl

end Verif.Cpu50
