import Verif.Cpu30.PropsShare
/-!
# Requests to main storage and successors of a microinstruction (C57, C59, C74)
-/
namespace Verif.Cpu30

/-- The register pair a storage request (CM = 3, 4, 5 or 7) takes its address from. -/
def Spec.addrRegs (w : Ros) (s : S) : Nat × Nat :=
  match w.CM with
  | 3 => (s.r.I, s.r.J)
  | 4 => (s.r.U, s.r.V)
  | 5 => (0x100, s.r.T)
  | _ => (s.c.GU s.c.ch, s.c.GV s.c.ch)

/-- The main storage address it stands for. -/
def Spec.address (w : Ros) (s : S) : Nat := (Spec.addrRegs w s).1 % 256 * 256 + (Spec.addrRegs w s).2 % 256

theorem sa_eq (m : Nat) (h : m < 512) : 0xe0 ||| ((m >>> 3) &&& 0x1f) = 0xe0 + m % 256 / 8 := by
  have t : ∀ n : Fin 512, 0xe0 ||| ((n.val >>> 3) &&& 0x1f) = 0xe0 + n.val % 256 / 8 := by decide +kernel
  exact t ⟨m, h⟩

/-- **C59**, request: a request for an address inside main storage, with good parity and no wrap pending, sets up the read
of exactly that address under the key of its 2048-byte block, and changes no storage. -/
theorem C59_request (e : Env) (w : Ros) (s s' : S) (k : Nat) (hk : k ≤ 16) (hm : s.m.max = 2 ^ k - 1) (h : cycle e w s = .ok s')
    (hcm : w.CM = 3 ∨ w.CM = 4 ∨ w.CM = 5 ∨ w.CM = 7) (hcu : w.CU = 0) (hcd : w.CD ≠ 3)
    (hr : s.a.readCall = false) (hal : s.a.allowWrite = false) (hold : outOfRange s = false)
    (hwr : s.l.iWrap = false ∧ s.l.uWrap = false ∧ s.l.uWrapMpx = false)
    (hp : Spec.oddParity (Spec.addrRegs w s).1 ∧ Spec.oddParity (Spec.addrRegs w s).2) (hb : (Spec.addrRegs w s).1 < 512)
    (hq : s.r.Q < 256) (hin : Spec.address w s ≤ s.m.max) :
    Spec.pendingRead s' ∧ s'.a.MN = Spec.address w s ∧ s'.a.SA = 0xe0 + Spec.address w s / 2048 ∧ s'.m = s.m ∧ s'.r.Q = s.r.Q ∧
      s'.l.inhStgProt = decide (w.CM = 5) := by
  obtain ⟨p⟩ := cycle_phases h
  have e1 : p.s1 = s := by
    have := p.read
    unfold memRead at this
    rw [hr] at this
    exact (Res.ok.inj this).symm
  obtain ⟨t1, t2, t3, t4, t5, t6, t7, t8⟩ := tail_frame p
  have hs2 : ∃ mn rc b mc, p.s2 = { s with a := { s.a with M := (Spec.addrRegs w s).1, N := (Spec.addrRegs w s).2, MN := Spec.address w s, SA := 0xe0 + (Spec.addrRegs w s).1 % 256 / 8, store := .main, readCall := rc }, l := { s.l with inhStgProt := decide (w.CM = 5), memWrapReq := mn, memProt := b }, r := { s.r with MC := mc } } ∧ rc = true := by
    have hc := p.ctl
    rw [e1] at hc
    unfold memCtl at hc
    have hor : bit (0xffff ^^^ s.m.max) s.a.MN = false := hold
    rw [if_neg (by omega), ok_bind] at hc
    have fin : ∀ m n inh, m < 512 → request w { s with a := { s.a with M := m, N := n }, l := { s.l with inhStgProt := inh } } = .ok p.s2 →
        ∃ b mc, p.s2 = { s with a := { s.a with M := m, N := n, MN := m % 256 * 256 + n % 256, SA := 0xe0 + m % 256 / 8, store := .main, readCall := true }, l := { s.l with inhStgProt := inh, memWrapReq := false, memProt := b }, r := { s.r with MC := mc } } := by
      intro m n inh hm5 hq
      unfold request selStore at hq
      rw [if_neg (by omega)] at hq
      simp only [hcu, ok_bind, outOfRange, hor, hwr.1, hwr.2.1, hwr.2.2, Bool.false_and, Bool.or_false] at hq
      obtain ⟨mc, b, e⟩ := checkMN_K hq
      refine ⟨b, mc, ?_⟩
      rw [e]
      simp only [setAddr, hr, hal, hwr.1, hwr.2.1, hwr.2.2, if_true, Bool.not_false, Bool.and_self, Bool.false_or, mn_eq, sa_eq m hm5]
    unfold setMN at hc
    unfold Spec.addrRegs at hb
    unfold Spec.address Spec.addrRegs
    rcases hcm with hc3 | hc3 | hc3 | hc3 <;> rw [hc3] at hc hb ⊢ <;> simp only [ok_bind] at hc hb ⊢
    all_goals
      obtain ⟨b, mc, e⟩ := fin _ _ _ (by omega) hc
      exact ⟨_, true, b, mc, e, rfl⟩
  obtain ⟨mn, rc, b, mc, hs2, hrc⟩ := hs2
  subst hrc
  have ha : s'.a = { s.a with M := (Spec.addrRegs w s).1, N := (Spec.addrRegs w s).2, MN := Spec.address w s, SA := 0xe0 + (Spec.addrRegs w s).1 % 256 / 8, store := .main, readCall := true } := by
    rw [t2, hs2]
  have hmm : s'.m = s.m := by rw [t1, hs2]
  have hQ : s'.r.Q = s.r.Q := by
    rw [t4, if_neg hcd, hs2]
  have hinh : s'.l.inhStgProt = decide (w.CM = 5) := by rw [t7, hs2]
  have hlt : Spec.address w s < 65536 := by unfold Spec.address; omega
  have hor : outOfRange s' = false := by
    have : ¬ (outOfRange s' = true) := by
      rw [outOfRange_iff s' k hk (by rw [hmm]; exact hm) (by rw [ha]; exact hlt), hmm, ha]
      exact Nat.not_lt.mpr hin
    simpa using this
  refine ⟨⟨by rw [ha], by rw [ha], hor, by rw [ha]; exact hp.1, by rw [ha]; exact hp.2, ?_, by rw [ha, hmm]; exact hin, by rw [hQ]; exact hq⟩, by rw [ha], ?_, hmm, hQ, hinh⟩
  · rw [ha]; show 0xe0 + (Spec.addrRegs w s).1 % 256 / 8 < 256; omega
  · rw [ha]; show 0xe0 + (Spec.addrRegs w s).1 % 256 / 8 = _; unfold Spec.address; omega

/-! ## C74 -/

/-- The control store page (256 words) a microinstruction without a special branch function continues in. -/
def Spec.page (w : Ros) (s : S) : Nat := if w.CM < 3 ∧ w.CU = 2 then w.CK % 16 else if w.CL = 2 then w.CA % 16 else s.q.WX / 256 % 16

theorem or_low (n x : Nat) (h : x < 4) : (n ||| x) / 4 = n / 4 := by
  have : (n ||| x) >>> 2 = (n >>> 2) ||| (x >>> 2) := Nat.shiftRight_or_distrib
  rw [Nat.shiftRight_eq_div_pow, Nat.shiftRight_eq_div_pow, Nat.shiftRight_eq_div_pow, show x / 2 ^ 2 = 0 by omega, Nat.or_zero] at this
  exact this

theorem page_or (p c : Nat) (h : c < 256) : (p <<< 8) ||| c = p * 256 + c := by
  rw [Nat.shiftLeft_eq, Nat.mul_comm p (2 ^ 8), ← Nat.two_pow_add_eq_or_of_lt h]

theorem and_f00 (x : Nat) : x &&& 0xf00 = (x / 256 % 16) <<< 8 := by
  rw [show 0xf00 = 0xf <<< 8 from rfl]
  have : x &&& 0xf <<< 8 = ((x >>> 8) &&& 0xf) <<< 8 := by
    apply Nat.eq_of_testBit_eq
    intro j
    simp only [Nat.testBit_and, Nat.testBit_shiftLeft, Nat.testBit_shiftRight]
    by_cases hj : 8 ≤ j
    · simp [hj, show 8 + (j - 8) = j by omega]
    · simp [hj]
  rw [this, and_f, Nat.shiftRight_eq_div_pow]

/-- **C74**: whatever the data, a microinstruction without a special branch function or a return from a channel routine
continues in the four-word group its address fields name: in the page of `Spec.page`, at CN with the low two bits free. -/
theorem C74_successors (e : Env) (w : Ros) (s s' : S) (h : cycle e w s = .ok s') (hw : w.Ok)
    (hk : w.CK ∉ [0x11, 0x13, 0x15, 0x19, 0x1a]) (hcd : w.CD ≠ 5) (h1 : s.q.selRest = false) (h2 : s.q.mpxRest = false) :
    s'.q.WX / 4 = (Spec.page w s * 256 + w.CN) / 4 := by
  obtain ⟨p⟩ := cycle_phases h
  obtain ⟨a1, a2, a3, a4, a5, a6⟩ := cycle_q p
  rcases a6 with h | ⟨h, -⟩
  · rw [h]
    unfold step
    simp only [a5, h1, h2]
    show nextWX e w p.s2 / 4 = _
    have hcn := hw.CN
    have hand : ∀ n, n &&& 0xff = n % 256 := and_ff
    unfold nextWX
    extract_lets n1 n2 n3 n4 n5 n6
    have q0 : n1 = s.q.WX / 256 % 16 * 256 + w.CN := by
      show (p.s2.q.WX &&& 0xf00) ||| w.CN = _
      rw [a5, and_f00, page_or _ _ hcn]
    have q1 : n2 / 4 = n1 / 4 := by
      show (if x6 w p.s2 then n1 ||| 2 else n1) / 4 = _
      split
      · exact or_low _ _ (by decide)
      · rfl
    have q2 : n3 / 4 = ((if w.CL = 2 then w.CA % 16 else s.q.WX / 256 % 16) * 256 + w.CN) / 4 := by
      show (if w.CL = 2 then ((w.CA &&& 0xf) <<< 8) ||| (n2 &&& 0xff) else n2) / 4 = _
      split
      · rw [and_f, hand, page_or _ _ (Nat.mod_lt _ (by decide))]
        omega
      · rw [q1, q0]
    have q3 : n4 / 4 = n3 / 4 := by
      show (if x7 e w p.s2 then n3 ||| 1 else n3) / 4 = _
      split
      · exact or_low _ _ (by decide)
      · rfl
    have q4 : n6 = n4 := by
      show (match w.CK with
        | 0x11 => _
        | 0x13 => _
        | 0x15 => _
        | 0x19 => _
        | 0x1a => _
        | _ => n4) = n4
      simp only [List.mem_cons, List.not_mem_nil, or_false, not_or] at hk
      split
      all_goals first | rfl | (exfalso; omega)
    unfold Spec.page
    split
    · rw [q4, and_f, hand, Nat.or_comm, page_or _ _ (Nat.mod_lt _ (by decide))]
      have hle : ∀ c : Nat, (if w.CL = 2 then c % 16 else s.q.WX / 256 % 16) < 16 := by intro c; split <;> omega
      have := hle w.CA
      omega
    · show n6 / 4 = _
      rw [q4, q3, q2]
  · exact absurd h hcd

end Verif.Cpu30
