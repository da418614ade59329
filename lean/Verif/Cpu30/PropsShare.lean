import Verif.Cpu30.PropsMem
/-!
# Storage cycles of the selector channels of the model 2030 (C73, C57)
-/
namespace Verif.Cpu30

/-- Data address of channel i. -/
def Spec.chanAddr (s : S) (i : Nat) : Nat := s.c.GU i % 256 * 256 + s.c.GV i % 256
/-- Remaining count of channel i. -/
def Spec.chanCount (s : S) (i : Nat) : Nat := s.c.GC i % 256 * 256 + s.c.GD i % 256
/-- The channel key of channel i is not zero and differs from the key of the 2048-byte block it addresses. -/
def Spec.chanProtects (s : S) (i : Nat) : Prop :=
  s.c.GK i / 16 % 16 ≠ 0 ∧ s.c.GK i / 16 % 16 ≠ s.m.mp (0xe0 + Spec.chanAddr s i / 2048) % 16
/-- Registers of channel i hold nine bit bytes. -/
structure Spec.chanOk (s : S) (i : Nat) : Prop where
  gu : s.c.GU i < 512
  gv : s.c.GV i < 512
  gc : s.c.GC i < 512
  gd : s.c.GD i < 512

/-- One channel storage operation: both halves, nothing between. -/
def transfer (i : Nat) (s : S) (f : Share) : Res (S × Share) := do
  let x ← shareRead i s f
  shareWrite i x.1 x.2

theorem byte_parity (v : Nat) (h : v < 256) : ∃ p, odd v = .ok p ∧ (v ||| p) % 256 = v ∧ (v ||| p) < 512 ∧ Good (v ||| p) := by
  obtain ⟨p, hp, rest⟩ := odd_spec v h
  refine ⟨p, hp, ?_⟩
  have t : ∀ n : Fin 256, (n.val ||| (match odd n.val with
    | .ok p => p
    | .oob => 0)) % 256 = n.val ∧ (n.val ||| (match odd n.val with
    | .ok p => p
    | .oob => 0)) < 512 ∧ Xlat.ones 9 (n.val ||| (match odd n.val with
    | .ok p => p
    | .oob => 0)) % 2 = 1 := by decide +kernel
  have := t ⟨v, h⟩
  simp only [hp] at this
  exact this

theorem upd_same (f : Nat → Nat) (i v : Nat) : upd f i v i = v := by simp [upd]

theorem mn_eq (a b : Nat) : ((a &&& 0xff) <<< 8) ||| (b &&& 0xff) = a % 256 * 256 + b % 256 := by
  rw [and_ff, and_ff, Nat.shiftLeft_eq, show a % 256 * 2 ^ 8 = 2 ^ 8 * (a % 256) from Nat.mul_comm _ _,
    ← Nat.two_pow_add_eq_or_of_lt (Nat.mod_lt _ (by decide))]

theorem key_index (a : Nat) (h : a < 512) : 0xe0 ||| (a >>> 3) = 0xe0 + a % 256 / 8 ∧ 0xe0 ||| (a >>> 3) < 256 := by
  have t : ∀ n : Fin 512, 0xe0 ||| (n.val >>> 3) = 0xe0 + n.val % 256 / 8 ∧ 0xe0 ||| (n.val >>> 3) < 256 := by decide +kernel
  exact t ⟨a, h⟩

/-- What the read half does. -/
structure ReadHalf (i : Nat) (s : S) (f : Share) (s1 : S) (f1 : Share) : Prop where
  mn : s1.a.MN = Spec.chanAddr s i
  main : s1.m = s.m
  gc : s1.c.GC i = s.c.GU i
  gd : s1.c.GD i = s.c.GV i
  cnt : Spec.chanAddr s1 i + 1 = Spec.chanCount s i
  gu : Good (s1.c.GU i) ∧ s1.c.GU i < 512
  gv : Good (s1.c.GV i) ∧ s1.c.GV i < 512
  q : s1.r.Q % 16 = s.m.mp (0xe0 + Spec.chanAddr s i / 2048) % 16
  gg : s1.c.GG = s.c.GG
  gk : s1.c.GK = s.c.GK
  gf : s1.c.GF = s.c.GF
  ch : s1.c.ch = s.c.ch
  gr : s1.c.GR i = if f.cntZero = false ∧ s.c.GG i % 2 = 1 ∧ f.grFull = false then s.m.main (Spec.chanAddr s i) % 65536 else s.c.GR i
  flags : f1 = { f with cntNotZero := f.cntNotZero && decide (Spec.chanCount s i ≠ 1) }
  others : ∀ j, j ≠ i → s1.c.GU j = s.c.GU j ∧ s1.c.GV j = s.c.GV j ∧ s1.c.GC j = s.c.GC j ∧ s1.c.GD j = s.c.GD j ∧ s1.c.GR j = s.c.GR j

theorem bit1 (x : Nat) : bit x 1 = decide (x % 2 = 1) := by
  unfold bit
  rw [Nat.and_one_is_mod]
  rcases Nat.mod_two_eq_zero_or_one x with h | h <;> rw [h] <;> rfl

theorem q_low (a b : Nat) : ((a &&& 0xf0) ||| (b &&& 0xf)) % 16 = b % 16 := by
  rw [← and_f, Nat.and_or_distrib_right, Nat.and_assoc, Nat.and_assoc]
  simp [and_f]

/-- The read half, for a channel with a count left and an address inside main storage. -/
theorem shareRead_spec (i : Nat) (s : S) (f : Share) (h : Spec.chanOk s i) (hc : Spec.chanCount s i ≠ 0)
    (hin : Spec.chanAddr s i ≤ s.m.max) : ∃ s1 f1, shareRead i s f = .ok (s1, f1) ∧ ReadHalf i s f s1 f1 := by
  unfold Spec.chanCount at hc
  have hgd := h.gd
  have hgc := h.gc
  have hz : (s.c.GD i + 65535) &&& 0xff = (s.c.GD i + 255) % 256 := by rw [and_ff]; omega
  have hy : (if (s.c.GD i + 65535) &&& 0xff = 0xff then ((s.c.GC i &&& 0xff) + 65535) % 65536 else s.c.GC i &&& 0xff)
      = (s.c.GC i % 256 * 256 + s.c.GD i % 256 - 1) / 256 := by
    rw [hz, and_ff]
    split <;> omega
  have hzb : (s.c.GD i + 65535) &&& 0xff < 256 := by rw [hz]; omega
  have hyb : (if (s.c.GD i + 65535) &&& 0xff = 0xff then ((s.c.GC i &&& 0xff) + 65535) % 65536 else s.c.GC i &&& 0xff) < 256 := by
    rw [hy]; omega
  obtain ⟨pz, hpz, z1, z2, z3⟩ := byte_parity _ hzb
  obtain ⟨py, hpy, y1, y2, y3⟩ := byte_parity _ hyb
  obtain ⟨ki, kl⟩ := key_index (s.c.GU i) h.gu
  unfold shareRead
  simp only [badParity_spec, ok_bind, hpz, hpy]
  have hq : Spec.chanAddr s i / 2048 = s.c.GU i % 256 / 8 := by unfold Spec.chanAddr; omega
  generalize ho : outOfRange { s with a := { s.a with M := s.c.GU i, N := s.c.GV i, MN := ((s.c.GU i &&& 0xff) <<< 8) ||| (s.c.GV i &&& 0xff) } } = o
  have hcnt : (((s.c.GD i + 65535) &&& 0xff) = 0 ∧ (if (s.c.GD i + 65535) &&& 0xff = 0xff then ((s.c.GC i &&& 0xff) + 65535) % 65536 else s.c.GC i &&& 0xff) = 0) ↔ Spec.chanCount s i = 1 := by
    rw [hy, hz]
    unfold Spec.chanCount
    omega
  simp only [hcnt]
  have hmn := mn_eq (s.c.GU i) (s.c.GV i)
  have hmx : ((s.c.GU i &&& 0xff) <<< 8) ||| (s.c.GV i &&& 0xff) ≤ s.m.max := by rw [hmn]; exact hin
  have hadr : ∀ a b, a % 256 = (if (s.c.GD i + 65535) &&& 0xff = 0xff then ((s.c.GC i &&& 0xff) + 65535) % 65536 else s.c.GC i &&& 0xff) →
      b % 256 = (s.c.GD i + 65535) &&& 0xff → a % 256 * 256 + b % 256 + 1 = s.c.GC i % 256 * 256 + s.c.GD i % 256 := by
    intro a b ha hb'
    rw [ha, hb', hy, hz]
    omega
  have key := hadr _ _ y1 z1
  unfold Mem.get Mem.getMP
  have hfl : ((if Spec.chanCount s i = 1 then { f with cntNotZero := false } else f) : Share) = { f with cntNotZero := f.cntNotZero && decide (Spec.chanCount s i ≠ 1) } := by
    by_cases h1 : Spec.chanCount s i = 1
    · simp [h1]
    · simp [h1]
  simp only [hfl]
  by_cases hrd : f.cntZero = false ∧ s.c.GG i % 2 = 1 ∧ f.grFull = false
  · have hrd' : f.cntZero = false ∧ bit (s.c.GG i) 1 = true ∧ f.grFull = false := by rw [bit1, decide_eq_true_eq]; exact hrd
    cases o <;> simp only [if_true, if_false, Bool.false_eq_true] <;>
      (generalize (decide (¬Good (s.c.GU i)) || decide (¬Good (s.c.GV i))) = b) <;> cases b <;>
      simp only [if_true, if_false, Bool.false_eq_true]
    all_goals
      simp only [hrd', hmx, kl, and_self, if_true, if_false, Bool.false_eq_true, ok_bind]
      refine ⟨_, _, rfl, ⟨hmn, rfl, ?_, ?_, ?_, ?_, ?_, ?_, rfl, rfl, rfl, rfl, ?_, (by simp [hrd.1, hrd.2.2]), ?_⟩⟩
      · exact upd_same _ _ _
      · exact upd_same _ _ _
      · unfold Spec.chanAddr Spec.chanCount; simp only [upd_same]; exact key
      · simp only [upd_same]; exact ⟨y3, y2⟩
      · simp only [upd_same]; exact ⟨z3, z2⟩
      · simp only [q_low]; rw [ki, hq]
      · simp only [upd_same]; rw [if_pos hrd, hmn]; rfl
      · intro j hj
        simp only [upd, hj, if_false]
        exact ⟨trivial, trivial, trivial, trivial, trivial⟩
  · have hrd' : ¬ (f.cntZero = false ∧ bit (s.c.GG i) 1 = true ∧ f.grFull = false) := by rw [bit1, decide_eq_true_eq]; exact hrd
    cases o <;> simp only [if_true, if_false, Bool.false_eq_true] <;>
      (generalize (decide (¬Good (s.c.GU i)) || decide (¬Good (s.c.GV i))) = b) <;> cases b <;>
      simp only [if_true, if_false, Bool.false_eq_true]
    all_goals
      simp only [hrd', kl, if_true, if_false, Bool.false_eq_true, ok_bind]
      refine ⟨_, _, rfl, ⟨hmn, rfl, ?_, ?_, ?_, ?_, ?_, ?_, rfl, rfl, rfl, rfl, ?_, rfl, ?_⟩⟩
      · exact upd_same _ _ _
      · exact upd_same _ _ _
      · unfold Spec.chanAddr Spec.chanCount; simp only [upd_same]; exact key
      · simp only [upd_same]; exact ⟨y3, y2⟩
      · simp only [upd_same]; exact ⟨z3, z2⟩
      · simp only [q_low]; rw [ki, hq]
      · rw [if_neg hrd]
      · intro j hj
        simp only [upd, hj, if_false]
        exact ⟨trivial, trivial, trivial, trivial, trivial⟩

/-- **C73 violated**, count: a storage cycle with the count already zero looks the count up outside the parity table. -/
theorem C73_violated_count_zero (i : Nat) (s : S) (f : Share) (hg : Spec.chanOk s i) (h : Spec.chanCount s i = 0) : shareRead i s f = .oob := by
  unfold Spec.chanCount at h
  have h1 : s.c.GD i % 256 = 0 := by omega
  have h2 : s.c.GC i % 256 = 0 := by omega
  have hz : (s.c.GD i + 65535) &&& 0xff = 0xff := by rw [and_ff]; omega
  unfold shareRead
  simp only [badParity_spec, ok_bind]
  rw [hz, and_ff, h2]
  obtain ⟨p, hp, -⟩ := odd_spec 0xff (by decide)
  have ho : odd 65535 = .oob := odd_oob _ (by decide)
  rw [hp, ok_bind]
  show (odd 65535 >>= _) = Res.oob
  rw [ho]
  rfl

/-- Direction of the address step taken from the registers. -/
def Spec.nextAddr (back : Bool) (a : Nat) : Nat := if back then a - 1 else a + 1

theorem mod4_and (g : Nat) : g &&& 3 = g % 4 := Nat.and_two_pow_sub_one_eq_mod g 2

/-- Input commands: read, control and sense codes as the channel classifies them. -/
def Spec.inputCmd (g : Nat) : Prop := g % 4 = 2 ∨ (g % 2 = 0 ∧ g / 4 % 2 = 1)

instance (g : Nat) : Decidable (Spec.inputCmd g) := inferInstanceAs (Decidable (_ ∨ _))

theorem isInput_iff (g : Nat) : isInput g = true ↔ Spec.inputCmd g := by
  unfold isInput Spec.inputCmd
  have h5 : g &&& 5 = g % 8 &&& 5 := by
    rw [← Nat.and_two_pow_sub_one_eq_mod g 3, Nat.and_assoc]
    rfl
  rw [mod4_and, h5]
  have : ∀ n : Fin 8, ((n.val &&& 5 == 4) = true ↔ n.val % 2 = 0 ∧ n.val / 4 % 2 = 1) := by decide
  have := this ⟨g % 8, Nat.mod_lt _ (by decide)⟩
  rw [Bool.or_eq_true, this]
  simp only [beq_iff_eq]
  constructor
  · rintro (h | h)
    · exact Or.inl h
    · right; omega
  · rintro (h | h)
    · exact Or.inl h
    · right; omega

/-- The key comparison. -/
theorem key_iff (gk q : Nat) : (bit gk 0xf0 = true ∧ bit ((gk >>> 4) ^^^ q) 0xf = true) ↔ (gk / 16 % 16 ≠ 0 ∧ gk / 16 % 16 ≠ q % 16) := by
  have h1 : bit gk 0xf0 = true ↔ gk / 16 % 16 ≠ 0 := by
    unfold bit
    have : gk &&& 0xf0 = (gk / 16 % 16) * 16 := by
      rw [← and_f, show 0xf0 = 0xf <<< 4 from rfl]
      have : gk &&& 0xf <<< 4 = ((gk >>> 4) &&& 0xf) <<< 4 := by
        apply Nat.eq_of_testBit_eq
        intro j
        simp only [Nat.testBit_and, Nat.testBit_shiftLeft, Nat.testBit_shiftRight]
        by_cases hj : 4 ≤ j
        · simp [hj, show 4 + (j - 4) = j by omega]
        · simp [hj]
      rw [this, Nat.shiftRight_eq_div_pow, Nat.shiftLeft_eq]
    rw [this, bne_iff_ne]
    omega
  have h2 : bit ((gk >>> 4) ^^^ q) 0xf = true ↔ gk / 16 % 16 ≠ q % 16 := by
    unfold bit
    rw [Nat.and_xor_distrib_right, and_f, and_f, Nat.shiftRight_eq_div_pow, bne_iff_ne]
    have t : ∀ a b : Fin 16, (a.val ^^^ b.val ≠ 0 ↔ a.val ≠ b.val) := by decide
    exact t ⟨gk / 2 ^ 4 % 16, Nat.mod_lt _ (by decide)⟩ ⟨q % 16, Nat.mod_lt _ (by decide)⟩
  rw [h1, h2]

/-- The write half after the address has been taken. -/
theorem shareWrite_spec (i : Nat) (s1 : S) (f : Share) (hg : s1.c.GC i < 512 ∧ s1.c.GD i < 512)
    (hback : s1.c.GG s1.c.ch = 0x10c → s1.c.GC i % 256 * 256 + s1.c.GD i % 256 ≠ 0)
    (hfwd : s1.c.GG s1.c.ch ≠ 0x10c → s1.c.GC i % 256 * 256 + s1.c.GD i % 256 ≠ 65535)
    (hin : s1.a.MN ≤ s1.m.max) :
    ∃ s2 f2, shareWrite i s1 f = .ok (s2, f2) ∧
      Spec.chanAddr s2 i = Spec.nextAddr (s1.c.GG s1.c.ch == 0x10c) (s1.c.GC i % 256 * 256 + s1.c.GD i % 256) ∧
      s2.c.GC i = s1.c.GU i ∧ s2.c.GD i = s1.c.GV i ∧ Good (s2.c.GU i) ∧ Good (s2.c.GV i) ∧
      s2.m.ls = s1.m.ls ∧ s2.m.mp = s1.m.mp ∧ s2.m.max = s1.m.max ∧
      s2.m.main = (if f.grFull = true ∧ Spec.inputCmd (s1.c.GG i) ∧ bit (s1.c.GF i) 0x10 = false then
        upd s1.m.main s1.a.MN (if s1.c.GK i / 16 % 16 ≠ 0 ∧ s1.c.GK i / 16 % 16 ≠ s1.r.Q % 16 then s1.m.main s1.a.MN % 65536 else s1.c.GR i)
        else s1.m.main) ∧
      (¬ (f.grFull = true ∧ Spec.inputCmd (s1.c.GG i)) → s2.c.GR i = s1.c.GR i) ∧
      (∀ j, j ≠ i → s2.c.GU j = s1.c.GU j ∧ s2.c.GV j = s1.c.GV j ∧ s2.c.GC j = s1.c.GC j ∧ s2.c.GD j = s1.c.GD j ∧ s2.c.GR j = s1.c.GR j) := by
  obtain ⟨hgc, hgd⟩ := hg
  unfold shareWrite
  simp only
  generalize hbk : (s1.c.GG s1.c.ch == 0x10c) = back
  have key : ∃ z y, (if back = true then (s1.c.GD i + 65535) &&& 0xff else (s1.c.GD i + 1) &&& 0xff) = z ∧
      (if back = true then (if z = 0xff then ((s1.c.GC i &&& 0xff) + 65535) % 65536 else s1.c.GC i &&& 0xff)
        else (if z = 0 then (s1.c.GC i &&& 0xff) + 1 else s1.c.GC i &&& 0xff)) = y ∧ z < 256 ∧ y < 256 ∧
      y * 256 + z = Spec.nextAddr back (s1.c.GC i % 256 * 256 + s1.c.GD i % 256) := by
    refine ⟨_, _, rfl, rfl, ?_⟩
    unfold Spec.nextAddr
    rw [and_ff, and_ff, and_ff]
    cases back
    · have := hfwd (by simpa using hbk)
      simp only [Bool.false_eq_true, if_false]
      refine ⟨by omega, ?_, ?_⟩ <;> (split <;> omega)
    · have := hback (by simpa using hbk)
      simp only [if_true]
      refine ⟨by omega, ?_, ?_⟩ <;> (split <;> omega)
  obtain ⟨z, y, hz, hy, zb, yb, hzy⟩ := key
  rw [hz, hy]
  obtain ⟨pz, hpz, z1, z2, z3⟩ := byte_parity z zb
  obtain ⟨py, hpy, y1, y2, y3⟩ := byte_parity y yb
  have hnb : bit y 0x100 = false := by
    unfold bit
    have : y &&& 0x100 = 0 := by
      have t : ∀ n : Fin 256, n.val &&& 0x100 = 0 := by decide +kernel
      exact t ⟨y, yb⟩
    rw [this]; rfl
  rw [hnb, Bool.and_false, if_neg (by decide), hpz, ok_bind, hpy, ok_bind]
  have hadr : (y ||| py) % 256 * 256 + (z ||| pz) % 256 = Spec.nextAddr back (s1.c.GC i % 256 * 256 + s1.c.GD i % 256) := by
    rw [y1, z1]; exact hzy
  simp only [badParity_spec, ok_bind]
  by_cases hi : f.grFull = true ∧ Spec.inputCmd (s1.c.GG i)
  · have hi' : (f.grFull && isInput (s1.c.GG i)) = true := by
      rw [Bool.and_eq_true, isInput_iff]; exact hi
    rw [hi']
    simp only [if_true]
    unfold shareStore Mem.get Mem.put
    simp only [key_iff, hin, if_true, ok_bind]
    by_cases hk : s1.c.GK i / 16 % 16 ≠ 0 ∧ s1.c.GK i / 16 % 16 ≠ s1.r.Q % 16
    · rw [if_pos hk, if_pos hk]
      simp only [ok_bind]
      by_cases hs : bit (s1.c.GF i) 0x10 = true
      · rw [if_pos hs, if_neg (show ¬ (f.grFull = true ∧ Spec.inputCmd (s1.c.GG i) ∧ bit (s1.c.GF i) 0x10 = false) by rw [hs]; simp), ok_bind]
        refine ⟨_, _, rfl, ?_⟩
        split
        all_goals
          unfold Spec.chanAddr
          simp only [upd_same]
          refine ⟨hadr, trivial, trivial, y3, z3, trivial, trivial, trivial, trivial, fun h => absurd hi h, ?_⟩
          intro j hj
          simp only [upd, hj, if_false]
          exact ⟨trivial, trivial, trivial, trivial, trivial⟩
      · rw [if_neg hs, if_pos hin, ok_bind, ok_bind, if_pos (show f.grFull = true ∧ Spec.inputCmd (s1.c.GG i) ∧ bit (s1.c.GF i) 0x10 = false from ⟨hi.1, hi.2, by simpa using hs⟩)]
        refine ⟨_, _, rfl, ?_⟩
        split
        all_goals
          unfold Spec.chanAddr
          simp only [upd_same]
          refine ⟨hadr, trivial, trivial, y3, z3, trivial, trivial, trivial, trivial, fun h => absurd hi h, ?_⟩
          intro j hj
          simp only [upd, hj, if_false]
          exact ⟨trivial, trivial, trivial, trivial, trivial⟩
    · rw [if_neg hk, if_neg hk]
      simp only [ok_bind]
      by_cases hs : bit (s1.c.GF i) 0x10 = true
      · rw [if_pos hs, if_neg (show ¬ (f.grFull = true ∧ Spec.inputCmd (s1.c.GG i) ∧ bit (s1.c.GF i) 0x10 = false) by rw [hs]; simp), ok_bind]
        refine ⟨_, _, rfl, ?_⟩
        split
        all_goals
          unfold Spec.chanAddr
          simp only [upd_same]
          refine ⟨hadr, trivial, trivial, y3, z3, trivial, trivial, trivial, trivial, fun h => absurd hi h, ?_⟩
          intro j hj
          simp only [upd, hj, if_false]
          exact ⟨trivial, trivial, trivial, trivial, trivial⟩
      · rw [if_neg hs, if_pos hin, ok_bind, ok_bind, if_pos (show f.grFull = true ∧ Spec.inputCmd (s1.c.GG i) ∧ bit (s1.c.GF i) 0x10 = false from ⟨hi.1, hi.2, by simpa using hs⟩)]
        refine ⟨_, _, rfl, ?_⟩
        split
        all_goals
          unfold Spec.chanAddr
          simp only [upd_same]
          refine ⟨hadr, trivial, trivial, y3, z3, trivial, trivial, trivial, trivial, fun h => absurd hi h, ?_⟩
          intro j hj
          simp only [upd, hj, if_false]
          exact ⟨trivial, trivial, trivial, trivial, trivial⟩
  · have hi' : (f.grFull && isInput (s1.c.GG i)) = false := by
      have : ¬ ((f.grFull && isInput (s1.c.GG i)) = true) := by rw [Bool.and_eq_true, isInput_iff]; exact hi
      simpa using this
    have hi2 : ¬ (f.grFull = true ∧ Spec.inputCmd (s1.c.GG i) ∧ bit (s1.c.GF i) 0x10 = false) := fun h => hi ⟨h.1, h.2.1⟩
    rw [hi', if_neg hi2]
    simp only [Bool.false_eq_true, if_false, ok_bind]
    refine ⟨_, _, rfl, ?_⟩
    split
    all_goals
      unfold Spec.chanAddr
      simp only [upd_same]
      refine ⟨hadr, trivial, trivial, y3, z3, trivial, trivial, trivial, trivial, fun _ => trivial, ?_⟩
      intro j hj
      simp only [upd, hj, if_false]
      exact ⟨trivial, trivial, trivial, trivial, trivial⟩

/-- Everything one storage operation of a channel does, when the selected channel gives the direction. -/
theorem transfer_spec (i : Nat) (s : S) (f : Share) (h : Spec.chanOk s i) (hc : Spec.chanCount s i ≠ 0)
    (hin : Spec.chanAddr s i ≤ s.m.max)
    (hback : s.c.GG s.c.ch = 0x10c → Spec.chanAddr s i ≠ 0) (hfwd : s.c.GG s.c.ch ≠ 0x10c → Spec.chanAddr s i ≠ 65535) :
    ∃ s2 f2, transfer i s f = .ok (s2, f2) ∧
      Spec.chanAddr s2 i = Spec.nextAddr (s.c.GG s.c.ch == 0x10c) (Spec.chanAddr s i) ∧ Spec.chanCount s2 i = Spec.chanCount s i - 1 ∧
      Good (s2.c.GU i) ∧ Good (s2.c.GV i) ∧ Good (s2.c.GC i) ∧ Good (s2.c.GD i) ∧
      s2.m.ls = s.m.ls ∧ s2.m.mp = s.m.mp ∧
      s2.m.main = (if f.grFull = true ∧ Spec.inputCmd (s.c.GG i) ∧ bit (s.c.GF i) 0x10 = false then
        upd s.m.main (Spec.chanAddr s i) (if s.c.GK i / 16 % 16 ≠ 0 ∧ s.c.GK i / 16 % 16 ≠ s.m.mp (0xe0 + Spec.chanAddr s i / 2048) % 16
          then s.m.main (Spec.chanAddr s i) % 65536 else s.c.GR i)
        else s.m.main) ∧
      (f.cntZero = false → s.c.GG i % 2 = 1 → f.grFull = false → s2.c.GR i = s.m.main (Spec.chanAddr s i) % 65536) ∧
      (∀ j, j ≠ i → Spec.chanAddr s2 j = Spec.chanAddr s j ∧ Spec.chanCount s2 j = Spec.chanCount s j ∧ s2.c.GR j = s.c.GR j) := by
  obtain ⟨s1, f1, h1, R⟩ := shareRead_spec i s f h hc hin
  have hga : s1.c.GC i % 256 * 256 + s1.c.GD i % 256 = Spec.chanAddr s i := by rw [R.gc, R.gd]; rfl
  have hgg : s1.c.GG s1.c.ch = s.c.GG s.c.ch := by rw [R.gg, R.ch]
  obtain ⟨s2, f2, h2, w1, w2, w3, w4, w5, w6, w7, w8, w9, w10, w11⟩ := shareWrite_spec i s1 f1 ⟨by rw [R.gc]; exact h.gu, by rw [R.gd]; exact h.gv⟩
    (by rw [hgg, hga]; exact hback) (by rw [hgg, hga]; exact hfwd) (by rw [R.mn, R.main]; exact hin)
  have hfull : f1.grFull = f.grFull := by rw [R.flags]
  refine ⟨s2, f2, ?_, ?_, ?_, w4, w5, ?_, ?_, ?_, ?_, ?_, ?_, ?_⟩
  · unfold transfer; rw [h1, ok_bind]; exact h2
  · rw [w1, hga, hgg]
  · have hx : Spec.chanCount s2 i = Spec.chanAddr s1 i := by unfold Spec.chanCount Spec.chanAddr; rw [w2, w3]
    rw [hx, ← R.cnt, Nat.add_sub_cancel]
  · rw [w2]; exact R.gu.1
  · rw [w3]; exact R.gv.1
  · rw [w6, R.main]
  · rw [w7, R.main]
  · rw [w9, hfull, R.gg, R.gf, R.gk, R.q, R.main, R.mn]
    by_cases hx : f.grFull = true ∧ Spec.inputCmd (s.c.GG i)
    · have hgr : s1.c.GR i = s.c.GR i := by
        rw [R.gr, if_neg]
        intro hh
        rw [hx.1] at hh
        simp at hh
      rw [hgr]
    · rw [if_neg (fun h => hx ⟨h.1, h.2.1⟩), if_neg (fun h => hx ⟨h.1, h.2.1⟩)]
  · intro a b c
    rw [w10 (by rw [hfull, c]; simp), R.gr, if_pos ⟨a, b, c⟩]
  · intro j hj
    obtain ⟨a1, a2, a3, a4, a5⟩ := R.others j hj
    obtain ⟨b1, b2, b3, b4, b5⟩ := w11 j hj
    unfold Spec.chanAddr Spec.chanCount
    rw [b1, b2, b3, b4, b5, a1, a2, a3, a4, a5]
    exact ⟨rfl, rfl, rfl⟩

/-- **C73**, input: with a byte in the channel's buffer, a count left and an address inside storage, the byte goes to the
data address and nowhere else, the address steps by one in the direction of the command, the count goes down by one, and no
other channel's registers change. -/
theorem C73_input_partial (i : Nat) (s : S) (f : Share) (h : Spec.chanOk s i) (hc : Spec.chanCount s i ≠ 0)
    (hin : Spec.chanAddr s i ≤ s.m.max) (hsel : s.c.ch = i) (hcmd : Spec.inputCmd (s.c.GG i)) (hfull : f.grFull = true)
    (hskip : bit (s.c.GF i) 0x10 = false) (hkey : ¬ Spec.chanProtects s i)
    (hedge : if s.c.GG i = 0x10c then Spec.chanAddr s i ≠ 0 else Spec.chanAddr s i ≠ 65535) :
    ∃ s2 f2, transfer i s f = .ok (s2, f2) ∧
      s2.m.main (Spec.chanAddr s i) = s.c.GR i ∧ (∀ a, a ≠ Spec.chanAddr s i → s2.m.main a = s.m.main a) ∧
      Spec.chanAddr s2 i = (if s.c.GG i = 0x10c then Spec.chanAddr s i - 1 else Spec.chanAddr s i + 1) ∧
      Spec.chanCount s2 i = Spec.chanCount s i - 1 ∧
      (∀ j, j ≠ i → Spec.chanAddr s2 j = Spec.chanAddr s j ∧ Spec.chanCount s2 j = Spec.chanCount s j ∧ s2.c.GR j = s.c.GR j) := by
  obtain ⟨s2, f2, h1, h2, h3, -, -, -, -, -, -, h4, -, h5⟩ := transfer_spec i s f h hc hin
    (by rw [hsel]; intro e; simpa [e] using hedge) (by rw [hsel]; intro e; simpa [e] using hedge)
  refine ⟨s2, f2, h1, ?_, ?_, ?_, h3, h5⟩
  · rw [h4, if_pos ⟨hfull, hcmd, hskip⟩, upd_same]; exact if_neg hkey
  · intro a ha
    rw [h4, if_pos ⟨hfull, hcmd, hskip⟩]
    simp [upd, ha]
  · rw [h2, hsel]
    unfold Spec.nextAddr
    by_cases e : s.c.GG i = 0x10c <;> simp [e]

/-- **C57**, channels: input to a block whose key differs from the channel's non-zero key changes nothing in main storage,
local storage or the keys. -/
theorem C57_channel_blocked (i : Nat) (s : S) (f : Share) (h : Spec.chanOk s i) (hc : Spec.chanCount s i ≠ 0)
    (hin : Spec.chanAddr s i ≤ s.m.max) (hv : ∀ a, s.m.main a < 65536)
    (hback : s.c.GG s.c.ch = 0x10c → Spec.chanAddr s i ≠ 0) (hfwd : s.c.GG s.c.ch ≠ 0x10c → Spec.chanAddr s i ≠ 65535)
    (hkey : Spec.chanProtects s i) : ∃ s2 f2, transfer i s f = .ok (s2, f2) ∧ s2.m.main = s.m.main ∧ s2.m.ls = s.m.ls ∧ s2.m.mp = s.m.mp := by
  obtain ⟨s2, f2, h1, h2, h3, -, -, -, -, h6, h7, h4, -, h5⟩ := transfer_spec i s f h hc hin hback hfwd
  refine ⟨s2, f2, h1, ?_, h6, h7⟩
  rw [h4]
  split
  · have hk : (if s.c.GK i / 16 % 16 ≠ 0 ∧ s.c.GK i / 16 % 16 ≠ s.m.mp (0xe0 + Spec.chanAddr s i / 2048) % 16 then s.m.main (Spec.chanAddr s i) % 65536 else s.c.GR i) = s.m.main (Spec.chanAddr s i) % 65536 := if_pos hkey
    rw [hk]
    funext a
    unfold upd
    by_cases e : a = Spec.chanAddr s i
    · simp [e, Nat.mod_eq_of_lt (hv _)]
    · simp [e]
  · rfl

/-- **C73**, output: with the buffer empty the byte at the data address is fetched; storage is unchanged and the address and
count step. -/
theorem C73_output_partial (i : Nat) (s : S) (f : Share) (h : Spec.chanOk s i) (hc : Spec.chanCount s i ≠ 0)
    (hin : Spec.chanAddr s i ≤ s.m.max) (hsel : s.c.ch = i) (hcmd : s.c.GG i % 2 = 1) (hempty : f.grFull = false) (hz : f.cntZero = false)
    (hv : ∀ a, s.m.main a < 65536) (hedge : Spec.chanAddr s i ≠ 65535) :
    ∃ s2 f2, transfer i s f = .ok (s2, f2) ∧ s2.c.GR i = s.m.main (Spec.chanAddr s i) ∧ s2.m.main = s.m.main ∧
      Spec.chanAddr s2 i = Spec.chanAddr s i + 1 ∧ Spec.chanCount s2 i = Spec.chanCount s i - 1 ∧
      (∀ j, j ≠ i → Spec.chanAddr s2 j = Spec.chanAddr s j ∧ Spec.chanCount s2 j = Spec.chanCount s j ∧ s2.c.GR j = s.c.GR j) := by
  have hn : s.c.GG i ≠ 0x10c := by intro e; rw [e] at hcmd; simp at hcmd
  obtain ⟨s2, f2, h1, h2, h3, -, -, -, -, -, -, h4, h6, h5⟩ := transfer_spec i s f h hc hin
    (by rw [hsel]; intro e; exact absurd e hn) (fun _ => hedge)
  refine ⟨s2, f2, h1, ?_, ?_, ?_, h3, h5⟩
  · rw [h6 hz hcmd hempty, Nat.mod_eq_of_lt (hv _)]
  · rw [h4, if_neg (by rw [hempty]; simp)]
  · rw [h2, hsel]
    unfold Spec.nextAddr
    simp [hn]

/-- **C73 violated**, end of storage: a forward transfer at the last of 65536 addresses looks the address up outside the
parity table. -/
theorem C73_violated_last_address (i : Nat) (s : S) (f : Share) (h : Spec.chanOk s i) (hc : Spec.chanCount s i ≠ 0)
    (hin : Spec.chanAddr s i ≤ s.m.max) (ha : Spec.chanAddr s i = 65535) (hd : s.c.GG s.c.ch ≠ 0x10c) : transfer i s f = .oob := by
  obtain ⟨s1, f1, h1, R⟩ := shareRead_spec i s f h hc hin
  unfold transfer
  rw [h1, ok_bind]
  show shareWrite i s1 f1 = .oob
  unfold Spec.chanAddr at ha
  have hgg : (s1.c.GG s1.c.ch == 0x10c) = false := by rw [R.gg, R.ch]; simpa using hd
  unfold shareWrite
  simp only [hgg, Bool.false_eq_true, if_false, R.gc, R.gd]
  have e1 : (s.c.GV i + 1) &&& 0xff = 0 := by rw [and_ff]; omega
  have e2 : s.c.GU i &&& 0xff = 255 := by rw [and_ff]; omega
  rw [e1, e2]
  obtain ⟨p, hp, -⟩ := odd_spec 0 (by decide)
  rw [hp, ok_bind]
  show (odd 256 >>= _) = Res.oob
  rw [odd_oob _ (by decide)]
  rfl

/-- **C73 violated**, direction: while the microprogram has another channel selected whose command is read backward, a
forward transfer steps its address down. -/
theorem C73_violated_direction (i : Nat) (s : S) (f : Share) (h : Spec.chanOk s i) (hc : Spec.chanCount s i ≠ 0)
    (hin : Spec.chanAddr s i ≤ s.m.max) (ha : Spec.chanAddr s i ≠ 0) (hd : s.c.GG s.c.ch = 0x10c) :
    ∃ s2 f2, transfer i s f = .ok (s2, f2) ∧ Spec.chanAddr s2 i = Spec.chanAddr s i - 1 := by
  obtain ⟨s2, f2, h1, h2, -⟩ := transfer_spec i s f h hc hin (fun _ => ha) (fun h => absurd hd h)
  refine ⟨s2, f2, h1, ?_⟩
  rw [h2, hd]
  rfl

end Verif.Cpu30
