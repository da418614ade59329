import Verif.Cpu30.PropsAlu
/-!
# Sequencing and storage of the model 2030

C56 control store address, C57 storage protection, C58 storage bounds, C59 reads regenerate.
-/
namespace Verif.Cpu30

/-! ## C56 -/

theorem nextWX_lt (e : Env) (w : Ros) (s : S) (hw : w.Ok) (hx : w.CK ≠ 0x11 ∨ (w.CM < 3 ∧ w.CU = 2)) : nextWX e w s < 4096 := by
  have or12 : ∀ a b : Nat, a < 4096 → b < 4096 → a ||| b < 4096 := fun a b h1 h2 => Nat.or_lt_two_pow (n := 12) h1 h2
  have and12 : ∀ a b : Nat, a < 4096 → a &&& b < 4096 := fun a b h => Nat.lt_of_le_of_lt Nat.and_le_left h
  have andr : ∀ a b : Nat, b < 4096 → a &&& b < 4096 := fun a b h => Nat.lt_of_le_of_lt Nat.and_le_right h
  have sh : ∀ a, (a &&& 0xf) <<< 8 < 4096 := fun a => by rw [and_f, Nat.shiftLeft_eq]; omega
  have h1 : (s.q.WX &&& 0xf00) ||| w.CN < 4096 := or12 _ _ (andr _ _ (by decide)) (by have := hw.CN; omega)
  unfold nextWX
  extract_lets n1 n2 n3 n4 n5 n6
  have h2 : n2 < 4096 := by
    show (if x6 w s then n1 ||| 2 else n1) < 4096
    split
    · exact or12 _ _ h1 (by decide)
    · exact h1
  have h3 : n3 < 4096 := by
    show (if w.CL = 2 then ((w.CA &&& 0xf) <<< 8) ||| (n2 &&& 0xff) else n2) < 4096
    split
    · exact or12 _ _ (sh _) (andr _ _ (by decide))
    · exact h2
  have h4 : n4 < 4096 := by
    show (if x7 e w s then n3 ||| 1 else n3) < 4096
    split
    · exact or12 _ _ h3 (by decide)
    · exact h3
  split
  · exact or12 _ _ (andr _ _ (by decide)) (sh _)
  · rename_i hcm
    have hk : w.CK ≠ 0x11 := by
      rcases hx with h | h
      · exact h
      · exact absurd h hcm
    have h5 : n5 < 4096 := by
      show (if s.l.iWrap then n4 &&& 0xffd else n4) < 4096
      split <;> first | exact and12 _ _ h4 | exact h4
    show n6 < 4096
    unfold n6
    split
    · contradiction
    · split <;> first | exact and12 _ _ h5 | exact h5
    · split <;> first | exact and12 _ _ h4 | exact h4
    · split <;> first | exact and12 _ _ h4 | exact h4
    · (repeat' split) <;> first | exact and12 _ _ h4 | exact h4
    · exact h4

/-- The control store address and the addresses kept for the return from channel routines are in range. -/
structure Spec.seqOk (q : Seq) : Prop where
  wx : q.WX < 4096
  fwx : q.FWX < 4096
  gwx : q.GWX < 4096
  selX : q.selX < 4
  mpxX : q.mpxX < 4

theorem dest_q {w : Ros} {tc : Bool} {o k : Nat} {s s' : S} (h : dest w tc o k s = .ok s') :
    s'.q.FWX = s.q.FWX ∧ s'.q.GWX = s.q.GWX ∧ s'.q.selX = s.q.selX ∧ s'.q.mpxX = s.q.mpxX ∧
      (s'.q.WX = s.q.WX ∨ (w.CD = 5 ∧ (s'.q.WX = s.q.FWX ∨ s'.q.WX = s.q.GWX))) := by
  unfold dest at h
  split at h
  case h_7 hc =>
    split at h
    · cases h; exact ⟨rfl, rfl, rfl, rfl, Or.inl rfl⟩
    · simp only [badParity_spec, ok_bind] at h
      cases h
      exact ⟨rfl, rfl, rfl, rfl, Or.inl rfl⟩
  case h_5 hc =>
    simp only at h
    have h2 := Res.ok.inj h
    rw [← h2]
    split
    · split
      · exact ⟨rfl, rfl, rfl, rfl, Or.inr ⟨hc, Or.inr rfl⟩⟩
      · exact ⟨rfl, rfl, rfl, rfl, Or.inr ⟨hc, Or.inl rfl⟩⟩
    · exact ⟨rfl, rfl, rfl, rfl, Or.inl rfl⟩
  case h_13 hc =>
    obtain ⟨l, hl⟩ := wrapU_K w tc k { s with r := { s.r with U := o } }
    rw [hl] at h
    cases h
    exact ⟨rfl, rfl, rfl, rfl, Or.inl rfl⟩
  case h_15 hc =>
    obtain ⟨l, hl⟩ := wrapI_K w tc k { s with r := { s.r with I := o } }
    rw [hl] at h
    cases h
    exact ⟨rfl, rfl, rfl, rfl, Or.inl rfl⟩
  all_goals (cases h; exact ⟨rfl, rfl, rfl, rfl, Or.inl rfl⟩)

/-- Sequencing registers after a cycle. -/
theorem cycle_q {e : Env} {w : Ros} {s s' : S} (p : Phases e w s s') :
    s'.q.FWX = s.q.FWX ∧ s'.q.GWX = s.q.GWX ∧ s'.q.selX = s.q.selX ∧ s'.q.mpxX = s.q.mpxX ∧ p.s2.q = s.q ∧
      (s'.q.WX = (step e w p.s2).q.WX ∨ (w.CD = 5 ∧ (s'.q.WX = s.q.FWX ∨ s'.q.WX = s.q.GWX))) := by
  have hq2 : p.s2.q = s.q := (memCtl_K p.ctl).2.2.1.trans (memRead_K p.read).2.2.2
  obtain ⟨m3, e3⟩ := busB_K p.bB
  obtain ⟨m4, c4, gr, ge, e4⟩ := busA_K p.bA
  obtain ⟨x, y, e5⟩ := decLatch_K w p.s4
  obtain ⟨x7, y7, e7⟩ := carrySave_K w p.k p.s5
  obtain ⟨x8, y8, z8, v8, c8, e8⟩ := csFunc_K e w p.o (carrySave w p.k p.s5)
  obtain ⟨m9, t9, e9⟩ := finish_K p.fin
  have hd : (decLatch w p.s4).q = (step e w p.s2).q := by
    rw [e5]
    simp only
    rw [e4]
    simp only
    rw [e3]
    exact (ckFunc_K w _).2.2.2.2.1
  obtain ⟨d1, d2, d3, d4, d5⟩ := dest_q p.hDest
  rw [hd] at d1 d2 d3 d4 d5
  have f : ∀ g : Seq → Nat, (∀ a b : Seq, { a with stat := 0 } = { b with stat := 0 } → g a = g b) → g s'.q = g p.s5.q := by
    intro g hg
    apply hg
    have : s'.q = _ := congrArg S.q e9
    rw [this, e8, e7]
  have f1 := f (·.FWX) (fun a b h => by have := congrArg Seq.FWX h; exact this)
  have f2 := f (·.GWX) (fun a b h => by have := congrArg Seq.GWX h; exact this)
  have f3 := f (·.selX) (fun a b h => by have := congrArg Seq.selX h; exact this)
  have f4 := f (·.mpxX) (fun a b h => by have := congrArg Seq.mpxX h; exact this)
  have f5 := f (·.WX) (fun a b h => by have := congrArg Seq.WX h; exact this)
  have st : (step e w p.s2).q.FWX = s.q.FWX ∧ (step e w p.s2).q.GWX = s.q.GWX ∧ (step e w p.s2).q.selX = s.q.selX ∧
      (step e w p.s2).q.mpxX = s.q.mpxX := by
    unfold step
    simp only [hq2, and_self]
  refine ⟨f1.trans (d1.trans st.1), f2.trans (d2.trans st.2.1), f3.trans (d3.trans st.2.2.1), f4.trans (d4.trans st.2.2.2), hq2, ?_⟩
  rw [show s'.q.WX = p.s5.q.WX from f5]
  rcases d5 with h | ⟨h, h' | h'⟩
  · exact Or.inl h
  · exact Or.inr ⟨h, Or.inl (h'.trans st.1)⟩
  · exact Or.inr ⟨h, Or.inr (h'.trans st.2.1)⟩

/-- **C56, partial**: the control store address stays inside the 4096 words whatever the microprogram, provided it does not
branch through U and V (CK = 11). -/
theorem C56_address_in_range_partial (prog : List (Env × Ros)) (s s' : S) (h : run prog s = .ok s')
    (hw : ∀ x ∈ prog, x.2.Ok ∧ x.2.CK ≠ 0x11) (hq : Spec.seqOk s.q) : Spec.seqOk s'.q := by
  induction prog generalizing s with
  | nil => cases h; exact hq
  | cons x l ih =>
    obtain ⟨e, w⟩ := x
    obtain ⟨s1, h1, h2⟩ := bind_ok (x := cycle e w s) h
    apply ih s1 h2 (fun x hx => hw x (by simp [hx]))
    obtain ⟨p⟩ := cycle_phases h1
    obtain ⟨a1, a2, a3, a4, a5, a6⟩ := cycle_q p
    obtain ⟨hok, hck⟩ := hw (e, w) (by simp)
    refine ⟨?_, by rw [a1]; exact hq.fwx, by rw [a2]; exact hq.gwx, by rw [a3]; exact hq.selX, by rw [a4]; exact hq.mpxX⟩
    rcases a6 with h | ⟨-, h | h⟩
    · rw [h]
      have hn := nextWX_lt e w p.s2 hok (Or.inl hck)
      have res : ∀ n x : Nat, x < 4 → (n &&& 0xffc) ||| x < 4096 := fun n x hx =>
        Nat.or_lt_two_pow (n := 12) (Nat.lt_of_le_of_lt Nat.and_le_right (by decide)) (by omega)
      unfold step
      simp only [a5]
      split
      · exact res _ _ hq.mpxX
      · split
        · exact res _ _ hq.selX
        · exact hn
    · rw [h]; exact hq.fwx
    · rw [h]; exact hq.gwx

/-- **C56 violated**: a branch through U and V goes outside the control store whenever U is 10 or more. -/
theorem C56_violated_branch_uv (e : Env) (w : Ros) (s s' : S) (h : cycle e w s = .ok s') (hk : w.CK = 0x11)
    (hcu : w.CU ≠ 2) (hcd : w.CD ≠ 5) (hu : 16 ≤ s.r.U % 256) (h1 : s.q.selRest = false) (h2 : s.q.mpxRest = false) : 4096 ≤ s'.q.WX := by
  obtain ⟨p⟩ := cycle_phases h
  obtain ⟨a1, a2, a3, a4, a5, a6⟩ := cycle_q p
  rcases a6 with h | ⟨h, -⟩
  · rw [h]
    have hU : p.s2.r.U = s.r.U := by
      have : K p.s2 = K s := (memCtl_K p.ctl).1.trans (memRead_K p.read).1
      unfold K at this
      simp only [List.cons.injEq, and_true] at this
      exact this.2.2.2.2.2.1
    unfold step
    simp only [a5, h1, h2]
    show 4096 ≤ nextWX e w p.s2
    unfold nextWX
    simp only [hk]
    rw [if_neg (fun h => hcu h.2), hU, and_ff, Nat.shiftLeft_eq]
    apply Nat.le_trans _ Nat.left_le_or
    omega
  · exact absurd h hcd

/-! ## C58 -/

/-- The storage address latches hold values the address logic can produce. -/
structure Spec.addrOk (s : S) : Prop where
  sa : s.a.SA < 256
  mn : s.a.MN < 65536
  ls : s.a.store ≠ .main → s.a.MN < 4096
  xx : s.r.XX < 256

theorem outOfRange_iff (s : S) (k : Nat) (hk : k ≤ 16) (hm : s.m.max = 2 ^ k - 1) (hn : s.a.MN < 65536) :
    outOfRange s = true ↔ s.m.max < s.a.MN := by
  have h2 : 0 < 2 ^ k := Nat.pow_pos (by decide)
  unfold outOfRange bit
  rw [bne_iff_ne, hm]
  constructor
  · intro h
    apply Decidable.byContradiction
    intro hle
    apply h
    apply Nat.eq_of_testBit_eq
    intro i
    rw [Nat.testBit_and, Nat.testBit_xor, Nat.zero_testBit, show 0xffff = 2 ^ 16 - 1 from rfl, Nat.testBit_two_pow_sub_one, Nat.testBit_two_pow_sub_one]
    by_cases hi : i < k
    · simp [hi, show i < 16 by omega]
    · rw [Nat.testBit_lt_two_pow (x := s.a.MN) (Nat.lt_of_lt_of_le (show s.a.MN < 2 ^ k by omega) (Nat.pow_le_pow_right (by decide) (by omega)))]
      simp
  · intro h h0
    have : s.a.MN < 2 ^ k := by
      apply Nat.lt_pow_two_of_testBit
      intro i hi
      by_cases h16 : i < 16
      · have hb : ((0xffff ^^^ (2 ^ k - 1)) &&& s.a.MN).testBit i = false := by
          rw [h0]; simp
        rw [Nat.testBit_and, Nat.testBit_xor, show 0xffff = 2 ^ 16 - 1 from rfl, Nat.testBit_two_pow_sub_one, Nat.testBit_two_pow_sub_one] at hb
        simpa [h16, show ¬ i < k by omega] using hb
      · exact Nat.testBit_lt_two_pow (Nat.lt_of_lt_of_le hn (show 2 ^ 16 ≤ 2 ^ i from Nat.pow_le_pow_right (by decide) (by omega)))
    omega

theorem checkMN_total (s : S) : ∃ s', checkMN s = .ok s' := by
  unfold checkMN
  simp only [badParity_spec, ok_bind]
  split <;> exact ⟨_, rfl⟩

theorem readCheck_total (s : S) : ∃ s', readCheck s = .ok s' := by
  unfold readCheck
  obtain ⟨s1, h1⟩ := checkMN_total { s with l := { s.l with protectLoc := false, memProt := false, stgProtReq := false } }
  rw [h1, ok_bind]
  split <;> exact ⟨_, rfl⟩

theorem keyCheck_m {w : Ros} {s s' : S} (h : keyCheck w s = .ok s') : s'.m = s.m ∧ s'.a = s.a ∧ s'.l.memProt = s.l.memProt ∧ s'.r.XX = s.r.XX := by
  unfold keyCheck at h
  obtain ⟨k, -, h⟩ := bind_ok h
  simp only at h
  split at h <;> (cases h; exact ⟨rfl, rfl, rfl, rfl⟩)

theorem keyCheck_total (w : Ros) (s : S) (h : s.a.SA < 256) : ∃ s', keyCheck w s = .ok s' := by
  unfold keyCheck Mem.getMP
  rw [if_pos h, ok_bind]
  simp only
  split <;> exact ⟨_, rfl⟩

/-- What a destructive read does. -/
theorem readOut_spec {w : Ros} {s s' : S} (h : readOut w s = .ok s') :
    s'.a = s.a ∧ s'.l = s.l ∧ s'.r.Q = s.r.Q ∧ s'.r.XX = s.r.XX ∧ s'.m.max = s.m.max ∧ s'.m.mp = s.m.mp ∧
    (s.a.store = .main → s.a.MN ≤ s.m.max ∧ s'.m.main = upd s.m.main s.a.MN 0 ∧ s'.m.ls = s.m.ls ∧
      (w.CU ≠ 1 → s'.r.R = s.m.main s.a.MN % 65536)) ∧
    (s.a.store ≠ .main → s'.m.main = s.m.main) := by
  unfold readOut at h
  split at h
  · rename_i hst
    unfold Mem.get Mem.put at h
    obtain ⟨v, hv, h⟩ := bind_ok h
    obtain ⟨m, hm, h⟩ := bind_ok h
    split at hv
    · rename_i hle
      rw [if_pos hle] at hm
      cases hv
      cases hm
      split at h
      · cases h
        exact ⟨rfl, rfl, rfl, rfl, rfl, rfl, fun _ => ⟨hle, rfl, rfl, fun h => absurd ‹w.CU = 1› h⟩, fun h => absurd hst h⟩
      · cases h
        exact ⟨rfl, rfl, rfl, rfl, rfl, rfl, fun _ => ⟨hle, rfl, rfl, fun h => rfl⟩, fun h => absurd hst h⟩
    · simp at hv
  · rename_i hst
    unfold Mem.getLS Mem.putLS at h
    obtain ⟨v, hv, h⟩ := bind_ok h
    obtain ⟨m, hm, h⟩ := bind_ok h
    split at hm
    · cases hm
      split at h <;> (cases h; exact ⟨rfl, rfl, rfl, rfl, rfl, rfl, fun h => absurd h hst, fun _ => rfl⟩)
    · simp at hm

theorem readOut_total (w : Ros) (s : S) (h1 : s.a.store = .main → s.a.MN ≤ s.m.max) (h2 : s.a.store ≠ .main → s.a.MN < 4096) :
    ∃ s', readOut w s = .ok s' := by
  unfold readOut Mem.get Mem.put Mem.getLS Mem.putLS
  split
  · rename_i hst
    rw [if_pos (h1 hst), if_pos (h1 hst), ok_bind, ok_bind]
    split <;> exact ⟨_, rfl⟩
  · rename_i hst
    rw [if_pos (h2 hst), if_pos (h2 hst), ok_bind, ok_bind]
    split <;> exact ⟨_, rfl⟩

theorem readCheck_prot {s s' : S} (h : readCheck s = .ok s') (hp : s'.l.memProt = false) (hst : s.a.store = .main) : outOfRange s = false := by
  unfold readCheck at h
  obtain ⟨s1, h1, h⟩ := bind_ok h
  obtain ⟨m, b, rfl⟩ := checkMN_K h1
  split at h
  · cases h
    simp at hp
  · rename_i hn
    have : ¬ (outOfRange s = true) := fun ho => hn ⟨hst, ho⟩
    simpa using this

/-- **C58**, reads: with a storage size that is a power of two, the read phase of no microinstruction leaves main storage,
local storage or the key array. -/
theorem C58_reads_inside (w : Ros) (s : S) (k : Nat) (hk : k ≤ 16) (hm : s.m.max = 2 ^ k - 1) (ha : Spec.addrOk s) :
    ∃ s1, memRead w s = .ok s1 := by
  unfold memRead
  split
  · obtain ⟨s1, h1⟩ := readCheck_total s
    obtain ⟨mc, b, e1⟩ := readCheck_K h1
    have hp := readCheck_prot h1
    rw [h1, ok_bind]
    have e1a : s1.a = s.a := by rw [e1]
    have e1m : s1.m = s.m := by rw [e1]
    have hsa : s1.a.SA < 256 := by rw [e1a]; exact ha.sa
    obtain ⟨s2, h2⟩ := keyCheck_total w s1 hsa
    have key : ∃ s2, (if (s1.a.store = .main ∧ s1.l.memProt = false) ∨ s1.a.store = .mpx then keyCheck w s1 else .ok s1) = .ok s2 ∧
        s2.m = s.m ∧ s2.a = s.a ∧ s2.l.memProt = s1.l.memProt := by
      split
      · obtain ⟨k1, k2, k3, k4⟩ := keyCheck_m h2
        exact ⟨s2, h2, k1.trans e1m, k2.trans e1a, k3⟩
      · exact ⟨s1, rfl, e1m, e1a, rfl⟩
    obtain ⟨s2, h2, m2, a2, p2⟩ := key
    rw [h2, ok_bind]
    split
    · rename_i hc
      have : ∃ s3, readOut w s2 = .ok s3 := by
        apply readOut_total
        · intro hst
          rw [a2] at hst ⊢
          rw [m2]
          have := hp (by rw [← p2]; exact hc.2) hst
          apply Decidable.byContradiction
          intro hlt
          have := (outOfRange_iff s k hk hm ha.mn).mpr (by omega)
          simp_all
        · intro hst
          rw [a2] at hst ⊢
          exact ha.ls hst
      obtain ⟨s3, h3⟩ := this
      rw [h3]
      exact ⟨_, rfl⟩
    · exact ⟨_, rfl⟩
  · exact ⟨s, rfl⟩

/-- The read phase keeps addresses and storage size. -/
theorem memRead_a {w : Ros} {s s1 : S} (h : memRead w s = .ok s1) :
    s1.a.SA = s.a.SA ∧ s1.a.MN = s.a.MN ∧ s1.a.store = s.a.store ∧ s1.m.max = s.m.max ∧ s1.r.XX = s.r.XX := by
  unfold memRead at h
  split at h
  · obtain ⟨t1, h1, h⟩ := bind_ok h
    obtain ⟨t2, h2, h⟩ := bind_ok h
    obtain ⟨t3, h3, h⟩ := bind_ok h
    cases h
    obtain ⟨m, b, rfl⟩ := readCheck_K h1
    have e2 : t2.a = s.a ∧ t2.m = s.m ∧ t2.r.XX = s.r.XX := by
      split at h2
      · obtain ⟨a, b, c, d⟩ := keyCheck_m h2
        exact ⟨b, a, d⟩
      · cases h2; exact ⟨rfl, rfl, rfl⟩
    have e3 : t3.a = t2.a ∧ t3.m.max = t2.m.max ∧ t3.r.XX = t2.r.XX := by
      split at h3
      · obtain ⟨a, b, c, d, e, -⟩ := readOut_spec h3
        exact ⟨a, e, d⟩
      · cases h3; exact ⟨rfl, rfl, rfl⟩
    simp only
    rw [e3.1, e2.1, e3.2.1, e2.2.1, e3.2.2, e2.2.2]
    exact ⟨rfl, rfl, rfl, rfl, rfl⟩
  · cases h; exact ⟨rfl, rfl, rfl, rfl, rfl⟩

theorem writeBack_a {w : Ros} {s s1 : S} (h : writeBack w s = .ok s1) :
    s1.a.SA = s.a.SA ∧ s1.a.MN = s.a.MN ∧ s1.a.store = s.a.store ∧ s1.m.max = s.m.max ∧ s1.r = s.r := by
  unfold writeBack at h
  split at h
  · obtain ⟨m, hm, h⟩ := bind_ok h
    cases h
    refine ⟨rfl, rfl, rfl, ?_, rfl⟩
    show m.max = s.m.max
    unfold Mem.put Mem.putMP Mem.putLS at hm
    split at hm
    · obtain ⟨m1, h1, hm⟩ := bind_ok hm
      split at h1
      · cases h1
        split at hm
        · cases hm; rfl
        · simp at hm
      · simp at h1
    · obtain ⟨m1, h1, hm⟩ := bind_ok hm
      split at h1
      · cases h1
        split at hm
        · cases hm; rfl
        · simp at hm
      · simp at h1
    · split at hm
      · cases hm; rfl
      · simp at hm
  · cases h; exact ⟨rfl, rfl, rfl, rfl, rfl⟩

theorem writeBack_total (w : Ros) (s : S) (h1 : s.a.store = .main → s.a.allowWrite = true → s.a.MN ≤ s.m.max) (h2 : s.a.SA < 256) :
    ∃ s', writeBack w s = .ok s' := by
  have hls : (s.a.MN &&& 0x7ff) < 4096 := Nat.lt_of_le_of_lt Nat.and_le_right (by decide)
  unfold writeBack
  split
  · rename_i hal
    simp only
    split
    · rename_i hst
      unfold Mem.put Mem.putMP
      rw [if_pos (h1 hst hal), ok_bind, if_pos h2]
      exact ⟨_, rfl⟩
    · unfold Mem.putLS Mem.putMP
      rw [if_pos h2, ok_bind, if_pos hls]
      exact ⟨_, rfl⟩
    · unfold Mem.putLS
      rw [if_pos hls]
      exact ⟨_, rfl⟩
  · exact ⟨s, rfl⟩

theorem setMN_total (w : Ros) (s : S) (hw : w.Ok) : ∃ s', setMN w s = .ok s' := by
  unfold setMN
  simp only
  split
  any_goals exact ⟨_, rfl⟩
  have : ∀ (c : Prop) [Decidable c], (if c then 0x88 ||| ((w.CN &&& 0x80) >>> 2) ||| ((w.CK &&& 0x8) <<< 1) ||| (w.CK &&& 0x7) ||| 0x10
      else 0x88 ||| ((w.CN &&& 0x80) >>> 2) ||| ((w.CK &&& 0x8) <<< 1) ||| (w.CK &&& 0x7)) < 256 := by
    intro c _
    have or8 : ∀ a b : Nat, a < 256 → b < 256 → a ||| b < 256 := fun a b h1 h2 => Nat.or_lt_two_pow (n := 8) h1 h2
    have h1 : (w.CN &&& 0x80) >>> 2 < 256 := by
      have : w.CN &&& 0x80 ≤ 0x80 := Nat.and_le_right
      rw [Nat.shiftRight_eq_div_pow]; omega
    have h2 : (w.CK &&& 0x8) <<< 1 < 256 := by
      have : w.CK &&& 0x8 ≤ 0x8 := Nat.and_le_right
      rw [Nat.shiftLeft_eq]; omega
    have h3 : w.CK &&& 0x7 < 256 := Nat.lt_of_le_of_lt Nat.and_le_right (by decide)
    split
    · exact or8 _ _ (or8 _ _ (or8 _ _ (or8 _ _ (by decide) h1) h2) h3) (by decide)
    · exact or8 _ _ (or8 _ _ (or8 _ _ (by decide) h1) h2) h3
  obtain ⟨p, hp, -⟩ := odd_spec _ (this (s.c.ch ≠ 0 ∧ ((w.CK &&& 0x1e) = 6 ∨ w.CK = 5)))
  rw [hp]
  exact ⟨_, rfl⟩

theorem setMN_a {w : Ros} {s s' : S} (h : setMN w s = .ok s') :
    s'.a.SA = s.a.SA ∧ s'.a.MN = s.a.MN ∧ s'.a.store = s.a.store ∧ s'.r = s.r ∧ s'.a.allowWrite = s.a.allowWrite ∧ s'.a.readCall = s.a.readCall := by
  unfold setMN at h
  simp only at h
  split at h
  any_goals (cases h; exact ⟨rfl, rfl, rfl, rfl, rfl, rfl⟩)
  obtain ⟨p, -, h⟩ := bind_ok h
  cases h; exact ⟨rfl, rfl, rfl, rfl, rfl, rfl⟩

theorem selStore_total (w : Ros) (s : S) (h : s.r.XX < 256) : ∃ s', selStore w s = .ok s' := by
  obtain ⟨p, hp, -⟩ := odd_spec 0xe0 (by decide)
  obtain ⟨p2, hp2, -⟩ := odd_spec s.r.XX h
  unfold selStore
  simp only
  split
  · exact ⟨_, rfl⟩
  · rw [hp]; exact ⟨_, rfl⟩
  · rw [hp2]; exact ⟨_, rfl⟩
  · split
    · rw [hp]; exact ⟨_, rfl⟩
    · exact ⟨_, rfl⟩

theorem selStore_sa {w : Ros} {s s' : S} (h : selStore w s = .ok s') (hs : s.a.SA < 256) : s'.a.SA < 256 ∧ s'.r = s.r := by
  unfold selStore at h
  simp only at h
  split at h
  · cases h; exact ⟨hs, rfl⟩
  · obtain ⟨p, -, h1⟩ := bind_ok h
    cases h1; exact ⟨hs, rfl⟩
  · obtain ⟨p, -, h1⟩ := bind_ok h
    cases h1
    refine ⟨?_, rfl⟩
    exact Nat.or_lt_two_pow (n := 8) (Nat.lt_of_le_of_lt Nat.and_le_right (by decide)) (Nat.lt_of_le_of_lt Nat.and_le_right (by decide))
  · split at h
    · obtain ⟨p, -, h1⟩ := bind_ok h
      cases h1; exact ⟨hs, rfl⟩
    · cases h; exact ⟨hs, rfl⟩

theorem setAddr_ok (s : S) (hs : s.a.SA < 256) (hx : s.r.XX < 256) : Spec.addrOk (setAddr s) := by
  have h8 : ∀ x, (x &&& 0xff) <<< 8 < 2 ^ 16 := fun x => by rw [and_ff, Nat.shiftLeft_eq]; omega
  have hff : ∀ x, x &&& 0xff < 256 := fun x => by rw [and_ff]; omega
  have h3 : ∀ x, (x &&& 0xe0) <<< 3 < 2 ^ 12 := fun x => by
    have : x &&& 0xe0 ≤ 0xe0 := Nat.and_le_right
    rw [Nat.shiftLeft_eq]; omega
  unfold setAddr
  simp only
  split
  · rename_i hst
    refine ⟨?_, ?_, fun h => absurd hst h, hx⟩
    · exact Nat.or_lt_two_pow (n := 8) (by decide) (Nat.lt_of_le_of_lt Nat.and_le_right (by decide))
    · exact Nat.or_lt_two_pow (n := 16) (h8 _) (by have := hff s.a.N; omega)
  · have : (s.a.M &&& 0xe0) <<< 3 ||| s.a.N &&& 0xff < 2 ^ 12 := Nat.or_lt_two_pow (h3 _) (by have := hff s.a.N; omega)
    exact ⟨hs, Nat.lt_trans this (by decide), fun _ => this, hx⟩

theorem request_addr {w : Ros} {s s' : S} (h : request w s = .ok s') (ha : Spec.addrOk s) : Spec.addrOk s' := by
  unfold request at h
  split at h
  · cases h; exact ha
  · obtain ⟨s1, h1, h⟩ := bind_ok h
    obtain ⟨x, y⟩ := selStore_sa h1 ha.sa
    obtain ⟨m, b, rfl⟩ := checkMN_K h
    have := setAddr_ok s1 x (by rw [y]; exact ha.xx)
    exact ⟨this.sa, this.mn, this.ls, this.xx⟩

theorem request_total (w : Ros) (s : S) (ha : Spec.addrOk s) : ∃ s', request w s = .ok s' := by
  unfold request
  split
  · exact ⟨s, rfl⟩
  · obtain ⟨s1, h1⟩ := selStore_total w s ha.xx
    rw [h1, ok_bind]
    exact checkMN_total _

theorem memCtl_addr {w : Ros} {s s' : S} (h : memCtl w s = .ok s') (ha : Spec.addrOk s) : Spec.addrOk s' := by
  unfold memCtl at h
  obtain ⟨s1, h1, h⟩ := bind_ok h
  obtain ⟨s2, h2, h⟩ := bind_ok h
  apply request_addr h
  obtain ⟨a1, a2, a3, a4, -⟩ := setMN_a h2
  have : Spec.addrOk s1 := by
    split at h1
    · obtain ⟨b1, b2, b3, b4, b5⟩ := writeBack_a h1
      exact ⟨by rw [b1]; exact ha.sa, by rw [b2]; exact ha.mn, by rw [b2, b3]; exact ha.ls, by rw [b5]; exact ha.xx⟩
    · cases h1; exact ha
  exact ⟨by rw [a1]; exact this.sa, by rw [a2]; exact this.mn, by rw [a2, a3]; exact this.ls, by rw [a4]; exact this.xx⟩

/-- XX after the cycle. -/
theorem cycle_XX {e : Env} {w : Ros} {s s' : S} (p : Phases e w s s') (h : p.s2.r.XX < 256) : s'.r.XX < 256 := by
  obtain ⟨m3, e3⟩ := busB_K p.bB
  obtain ⟨m4, c4, gr, ge, e4⟩ := busA_K p.bA
  obtain ⟨x, y, e5⟩ := decLatch_K w p.s4
  obtain ⟨x7, y7, e7⟩ := carrySave_K w p.k p.s5
  obtain ⟨m9, t9, e9⟩ := finish_K p.fin
  have k : (ckFunc w (step e w p.s2)).r.XX = p.s2.r.XX := by unfold ckFunc; split <;> rfl
  have hd : (decLatch w p.s4).r.XX = p.s2.r.XX := by
    rw [e5]
    simp only
    rw [e4]
    simp only
    rw [e3]
    exact k
  have h5 : p.s5.r.XX = (decLatch w p.s4).r.XX := by
    have h := p.hDest
    unfold dest at h
    split at h
    case h_7 hc =>
      split at h
      · rw [← Res.ok.inj h]
      · simp only [badParity_spec, ok_bind] at h
        rw [← Res.ok.inj h]
    case h_5 hc =>
      simp only at h
      rw [← Res.ok.inj h]
      (repeat' split) <;> rfl
    case h_13 hc =>
      obtain ⟨l, hl⟩ := wrapU_K w (complement w.CV (decLatch w p.s4).r.S) p.k { decLatch w p.s4 with r := { (decLatch w p.s4).r with U := p.o } }
      rw [hl] at h
      rw [← Res.ok.inj h]
    case h_15 hc =>
      obtain ⟨l, hl⟩ := wrapI_K w (complement w.CV (decLatch w p.s4).r.S) p.k { decLatch w p.s4 with r := { (decLatch w p.s4).r with I := p.o } }
      rw [hl] at h
      rw [← Res.ok.inj h]
    all_goals (rw [← Res.ok.inj h])
  have h7 : (carrySave w p.k p.s5).r.XX < 256 := by rw [e7]; simp only; rw [h5, hd]; exact h
  have h8 : (csFunc e w p.o (carrySave w p.k p.s5)).r.XX < 256 := by
    unfold csFunc
    simp only
    split
    case h_14 =>
      split
      · exact Nat.lt_of_le_of_lt Nat.and_le_left (by decide)
      · split <;> exact h7
    any_goals exact h7
    all_goals (repeat' split) <;> exact h7
  have := congrArg (fun t => t.r.XX) e9
  simp only at this
  rw [this]
  exact h8

/-- A cycle keeps addresses well formed. -/
theorem cycle_addr {e : Env} {w : Ros} {s s' : S} (h : cycle e w s = .ok s') (ha : Spec.addrOk s) : Spec.addrOk s' ∧ s'.m.max = s.m.max := by
  obtain ⟨p⟩ := cycle_phases h
  obtain ⟨r1, r2, r3, r4, r5⟩ := memRead_a p.read
  have h1 : Spec.addrOk p.s1 := ⟨by rw [r1]; exact ha.sa, by rw [r2]; exact ha.mn, by rw [r2, r3]; exact ha.ls, by rw [r5]; exact ha.xx⟩
  have h2 := memCtl_addr p.ctl h1
  obtain ⟨t1, t2, -⟩ := tail_frame p
  refine ⟨⟨by rw [t2]; exact h2.sa, by rw [t2]; exact h2.mn, by rw [t2]; exact h2.ls, cycle_XX p h2.xx⟩, ?_⟩
  rw [t1, ← r4]
  have hc := p.ctl
  unfold memCtl at hc
  obtain ⟨u1, c1, hc⟩ := bind_ok hc
  obtain ⟨u2, c2, hc⟩ := bind_ok hc
  rw [(request_K hc).2.2.2.2, (setMN_K c2).2.2.2.2]
  split at c1
  · exact (writeBack_a c1).2.2.2.1
  · cases c1; rfl

/-- The storage operations of one microinstruction stay inside the arrays unless it writes back to an address beyond main
storage. -/
theorem memCtl_total (w : Ros) (s : S) (hw : w.Ok) (ha : Spec.addrOk s)
    (h : s.a.store = .main → s.a.allowWrite = true → s.a.MN ≤ s.m.max) : ∃ s', memCtl w s = .ok s' := by
  have hb : ∃ s1, (if w.CM = 0 ∨ (w.CM = 2 ∧ s.l.stgProtReq = false) then writeBack w s else .ok s) = .ok s1 ∧ Spec.addrOk s1 := by
    split
    · obtain ⟨s1, h1⟩ := writeBack_total w s h ha.sa
      obtain ⟨b1, b2, b3, b4, b5⟩ := writeBack_a h1
      exact ⟨s1, h1, by rw [b1]; exact ha.sa, by rw [b2]; exact ha.mn, by rw [b2, b3]; exact ha.ls, by rw [b5]; exact ha.xx⟩
    · exact ⟨s, rfl, ha⟩
  obtain ⟨s1, h1, a1⟩ := hb
  obtain ⟨s2, h2⟩ := setMN_total w s1 hw
  obtain ⟨c1, c2, c3, c4, -⟩ := setMN_a h2
  have a2 : Spec.addrOk s2 := ⟨by rw [c1]; exact a1.sa, by rw [c2]; exact a1.mn, by rw [c2, c3]; exact a1.ls, by rw [c4]; exact a1.xx⟩
  obtain ⟨s3, h3⟩ := request_total w s2 a2
  refine ⟨s3, ?_⟩
  unfold memCtl
  rw [h1, ok_bind, h2, ok_bind, h3]

/-- **C58, partial**: on a machine with all 65536 bytes no microprogram, after any history, makes a storage access outside
main storage, local storage or the keys. -/
theorem C58_full_size_partial (prog : List (Env × Ros)) (s0 s : S) (e : Env) (w : Ros) (h : run prog s0 = .ok s) (ha : Spec.addrOk s0)
    (hm : s0.m.max = 65535) (hw : w.Ok) : ∃ s1 s2, memRead w s = .ok s1 ∧ memCtl w s1 = .ok s2 := by
  have inv : Spec.addrOk s ∧ s.m.max = 65535 := by
    induction prog generalizing s0 with
    | nil => cases h; exact ⟨ha, hm⟩
    | cons x l ih =>
      obtain ⟨s1, h1, h2⟩ := bind_ok (x := cycle x.1 x.2 s0) h
      obtain ⟨a1, m1⟩ := cycle_addr h1 ha
      exact ih s1 h2 a1 (by rw [m1, hm])
  obtain ⟨ha, hm⟩ := inv
  obtain ⟨s1, h1⟩ := C58_reads_inside w s 16 (by omega) hm ha
  obtain ⟨r1, r2, r3, r4, r5⟩ := memRead_a h1
  have a1 : Spec.addrOk s1 := ⟨by rw [r1]; exact ha.sa, by rw [r2]; exact ha.mn, by rw [r2, r3]; exact ha.ls, by rw [r5]; exact ha.xx⟩
  obtain ⟨s2, h2⟩ := memCtl_total w s1 hw a1 (fun _ _ => by have := a1.mn; omega)
  exact ⟨s1, s2, h1, h2⟩

/-- **C58, partial**, any size: a microinstruction whose pending address lies in main storage makes no access outside the
arrays. -/
theorem C58_in_range_partial (w : Ros) (s : S) (k : Nat) (hk : k ≤ 16) (hm : s.m.max = 2 ^ k - 1) (hw : w.Ok) (ha : Spec.addrOk s)
    (hin : s.a.store = .main → s.a.MN ≤ s.m.max) : ∃ s1 s2, memRead w s = .ok s1 ∧ memCtl w s1 = .ok s2 := by
  obtain ⟨s1, h1⟩ := C58_reads_inside w s k hk hm ha
  obtain ⟨r1, r2, r3, r4, r5⟩ := memRead_a h1
  have a1 : Spec.addrOk s1 := ⟨by rw [r1]; exact ha.sa, by rw [r2]; exact ha.mn, by rw [r2, r3]; exact ha.ls, by rw [r5]; exact ha.xx⟩
  obtain ⟨s2, h2⟩ := memCtl_total w s1 hw a1 (fun hs _ => by rw [r2, r4]; exact hin (by rw [← r3]; exact hs))
  exact ⟨s1, s2, h1, h2⟩

theorem memRead_allow {w : Ros} {s s1 : S} (h : memRead w s = .ok s1) (hr : s.a.readCall = true) : s1.a.allowWrite = true ∧ s1.a.readCall = false := by
  unfold memRead at h
  rw [hr, if_pos rfl] at h
  obtain ⟨t1, h1, h⟩ := bind_ok h
  obtain ⟨t2, h2, h⟩ := bind_ok h
  obtain ⟨t3, h3, h⟩ := bind_ok h
  cases h
  exact ⟨rfl, rfl⟩

/-- **C58 violated** on every machine with less than 65536 bytes: a read through U and V of an address beyond main storage
followed by the write back makes the simulator write outside its storage array. -/
theorem C58_violated_write_back (e1 e2 : Env) (w1 w2 : Ros) (s s1 : S) (h : cycle e1 w1 s = .ok s1)
    (hw1 : w1.CM = 4 ∧ w1.CU = 0) (hw2 : w2.CM = 0) (hr : s.a.readCall = false) (hal : s.a.allowWrite = false)
    (hin : outOfRange s = false) (hwr : s.l.uWrap = false ∧ s.l.uWrapMpx = false)
    (hbeyond : s.m.max < s.r.U % 256 * 256 + s.r.V % 256) : cycle e2 w2 s1 = .oob := by
  obtain ⟨p⟩ := cycle_phases h
  have hs1 : p.s1 = s := by
    have := p.read
    unfold memRead at this
    rw [hr] at this
    exact (Res.ok.inj this).symm
  obtain ⟨t1, t2, -⟩ := tail_frame p
  have hA : p.s2.a.readCall = true ∧ p.s2.a.MN = s.r.U % 256 * 256 + s.r.V % 256 ∧ p.s2.a.store = .main ∧ p.s2.m = s.m := by
    have hc := p.ctl
    rw [hs1] at hc
    unfold memCtl at hc
    rw [if_neg (by rw [hw1.1]; omega), ok_bind] at hc
    unfold setMN request selStore at hc
    simp only [hw1.1, hw1.2, ok_bind] at hc
    rw [if_neg (by omega)] at hc
    obtain ⟨m, b, e⟩ := checkMN_K hc
    rw [e]
    have hor : bit (0xffff ^^^ s.m.max) s.a.MN = false := hin
    simp only [setAddr, outOfRange, hor, hwr.1, hwr.2, hal, Bool.false_and, Bool.or_false, Bool.not_false, Bool.true_and, if_true]
    refine ⟨by simp, ?_, trivial, trivial⟩
    · rw [and_ff, and_ff, Nat.shiftLeft_eq]
      have : s.r.U % 256 * 2 ^ 8 = 2 ^ 8 * (s.r.U % 256) := Nat.mul_comm _ _
      rw [this, ← Nat.two_pow_add_eq_or_of_lt (Nat.mod_lt _ (by decide))]
  obtain ⟨q1, q2, q3, q4⟩ := hA
  rw [← t2] at q1 q2 q3
  rw [← t1] at q4
  unfold cycle
  cases hmr : memRead w2 s1 with
  | oob => rfl
  | ok s2 =>
    obtain ⟨r1, r2, r3, r4, r5⟩ := memRead_a hmr
    obtain ⟨al, -⟩ := memRead_allow hmr q1
    have : memCtl w2 s2 = .oob := by
      unfold memCtl writeBack Mem.put
      rw [if_pos (Or.inl hw2), al, if_pos rfl, r3, q3]
      simp only
      rw [if_neg (by rw [r2, q2, r4, q4]; omega)]
      rfl
    rw [ok_bind, this]
    rfl

/-! ## C59 and C57 -/

/-- A pending read of a location of main storage that passes the address checks. -/
structure Spec.pendingRead (s : S) : Prop where
  call : s.a.readCall = true
  main : s.a.store = .main
  range : outOfRange s = false
  m : Spec.oddParity s.a.M
  n : Spec.oddParity s.a.N
  sa : s.a.SA < 256
  inside : s.a.MN ≤ s.m.max
  q : s.r.Q < 256

/-- The key in force (high half of Q) is not zero and differs from the key of the location, and protection applies. -/
def Spec.protects (s : S) : Prop :=
  s.l.inhStgProt = false ∧ s.r.H / 4 % 2 = 0 ∧ s.r.Q / 16 ≠ 0 ∧ s.r.Q / 16 ≠ s.m.mp s.a.SA % 16

theorem upd_restore (f : Nat → Nat) (a v : Nat) (h : v = f a) : upd (upd f a 0) a v = f := by
  funext j
  unfold upd
  by_cases hj : j = a
  · subst hj; simp [h]
  · simp [hj]

theorem keyCheck_main (w : Ros) (s : S) (hm : s.a.store = .main) (hs : s.a.SA < 256) (hq : s.r.Q < 256) :
    (Spec.protects s → keyCheck w s = .ok { s with r := { s.r with Q := (s.r.Q &&& 0xf0) ||| (s.m.mp s.a.SA &&& 0xf) }, l := { s.l with protectLoc := true, stgProtReq := s.l.stgProtReq || (w.CM == 2) } }) ∧
    (¬ Spec.protects s → keyCheck w s = .ok { s with r := { s.r with Q := (s.r.Q &&& 0xf0) ||| (s.m.mp s.a.SA &&& 0xf) } }) := by
  have hpi : (s.a.store = .main ∧ s.l.inhStgProt = false ∧ bit s.r.H 0x04 = false ∧ bit ((s.r.Q &&& 0xf0) ||| (s.m.mp s.a.SA &&& 0xf)) 0xf0 = true ∧
      bit ((((s.r.Q &&& 0xf0) ||| (s.m.mp s.a.SA &&& 0xf)) >>> 4) ^^^ ((s.r.Q &&& 0xf0) ||| (s.m.mp s.a.SA &&& 0xf))) 0xf = true) ↔ Spec.protects s := by
    have hq' : ∀ q : Fin 256, ∀ k : Fin 16, (bit ((q.val &&& 0xf0) ||| k.val) 0xf0 = true ↔ q.val / 16 ≠ 0) ∧
        (bit ((((q.val &&& 0xf0) ||| k.val) >>> 4) ^^^ ((q.val &&& 0xf0) ||| k.val)) 0xf = true ↔ q.val / 16 ≠ k.val) := by decide +kernel
    obtain ⟨h1, h2⟩ := hq' ⟨s.r.Q, hq⟩ ⟨s.m.mp s.a.SA % 16, Nat.mod_lt _ (by decide)⟩
    simp only at h1 h2
    rw [and_f (s.m.mp s.a.SA), h1, h2, bit4]
    unfold Spec.protects
    simp only [decide_eq_false_iff_not]
    constructor
    · intro ⟨_, a, b, c, d⟩; exact ⟨a, by omega, c, d⟩
    · intro ⟨a, b, c, d⟩; exact ⟨hm, a, by omega, c, d⟩
  unfold keyCheck Mem.getMP
  rw [if_pos hs, ok_bind]
  simp only
  exact ⟨fun h => by rw [if_pos (hpi.mpr h)], fun h => by rw [if_neg (fun x => h (hpi.mp x))]⟩

/-- The read phase on a pending read. -/
theorem memRead_pending {w : Ros} {s s1 : S} (h : memRead w s = .ok s1) (hp : Spec.pendingRead s) (hcm : w.CM ≠ 2) (hcu : w.CU ≠ 1) :
    s1.m.main = upd s.m.main s.a.MN 0 ∧ s1.r.R = s.m.main s.a.MN % 65536 ∧ s1.m.mp = s.m.mp ∧ s1.m.ls = s.m.ls ∧ s1.m.max = s.m.max ∧
      s1.r.Q = (s.r.Q &&& 0xf0) ||| (s.m.mp s.a.SA &&& 0xf) ∧
      s1.a.MN = s.a.MN ∧ s1.a.SA = s.a.SA ∧ s1.a.store = .main ∧ s1.a.allowWrite = true ∧ s1.a.readCall = false ∧ s1.l.memProt = false ∧
      (Spec.protects s → s1.l.protectLoc = true) ∧ (¬ Spec.protects s → s1.l.protectLoc = false) ∧ s1.l.stgProtReq = false := by
  unfold memRead at h
  rw [hp.call, if_pos rfl] at h
  have hrc : readCheck s = .ok { s with l := { s.l with protectLoc := false, memProt := false, stgProtReq := false } } := by
    unfold readCheck checkMN
    simp only [badParity_spec, ok_bind]
    have g1 : Good s.a.M := hp.m
    have g2 : Good s.a.N := hp.n
    simp only [g1, g2, not_true, decide_false, Bool.or_false, Bool.false_eq_true, if_false, ok_bind]
    have : outOfRange { s with l := { s.l with protectLoc := false, memProt := false, stgProtReq := false } } = false := hp.range
    rw [this]
    simp
  rw [hrc, ok_bind] at h
  simp only [hp.main, true_and, true_or, if_true] at h
  obtain ⟨k1, k2⟩ := keyCheck_main w { s with l := { s.l with protectLoc := false, memProt := false, stgProtReq := false } } hp.main hp.sa hp.q
  have hcmb : (w.CM == 2) = false := by simpa using hcm
  by_cases hpr : Spec.protects s
  · rw [k1 hpr, ok_bind] at h
    simp only [hcm, ne_eq, not_false_eq_true, and_self, if_true] at h
    unfold readOut Mem.get Mem.put at h
    simp only [hp.main, if_true, hp.inside, ok_bind, if_neg hcu] at h
    have := Res.ok.inj h
    rw [← this]
    exact ⟨rfl, rfl, rfl, rfl, rfl, rfl, rfl, rfl, rfl, rfl, rfl, rfl, fun _ => rfl, fun h => absurd hpr h, (by show (false || (w.CM == 2)) = false; rw [hcmb]; rfl)⟩
  · rw [k2 hpr, ok_bind] at h
    simp only [hcm, ne_eq, not_false_eq_true, and_self, if_true] at h
    unfold readOut Mem.get Mem.put at h
    simp only [hp.main, if_true, hp.inside, ok_bind, if_neg hcu] at h
    have := Res.ok.inj h
    rw [← this]
    exact ⟨rfl, rfl, rfl, rfl, rfl, rfl, rfl, rfl, rfl, rfl, rfl, rfl, fun h => absurd h hpr, fun _ => rfl, rfl⟩

/-- State between the read of a location and its write back. -/
structure Held (s0 : S) (prot : Bool) (s : S) : Prop where
  main : s.m.main = upd s0.m.main s0.a.MN 0
  R : s.r.R = s0.m.main s0.a.MN % 65536
  ls : s.m.ls = s0.m.ls
  mp : s.m.mp = s0.m.mp
  max : s.m.max = s0.m.max
  MN : s.a.MN = s0.a.MN
  SA : s.a.SA = s0.a.SA
  store : s.a.store = .main
  allow : s.a.allowWrite = true
  rc : s.a.readCall = false
  mprot : s.l.memProt = false
  prot : prot = true → s.l.protectLoc = true

theorem compute_ctl {w : Ros} (s : S) (h : w.CM = 1) : memCtl w s = .ok s := by
  unfold memCtl setMN request
  rw [if_neg (by rw [h]; omega), h]
  rfl

theorem held_tail {e : Env} {w : Ros} {s0 s s' : S} {prot : Bool} (p : Phases e w s s') (h : Held s0 prot p.s1) (hcm : w.CM = 1)
    (hcd : prot = true ∨ w.CD ≠ 7) : Held s0 prot s' := by
  have h2 : p.s2 = p.s1 := by
    have := p.ctl
    rw [compute_ctl p.s1 hcm] at this
    exact (Res.ok.inj this).symm
  obtain ⟨t1, t2, t3, t4, t5, t6, t7, t8⟩ := tail_frame p
  rw [h2] at t1 t2 t3 t4 t5 t6 t7 t8
  have hR : s'.r.R = p.s1.r.R := by
    rw [t3]
    rcases hcd with hp | hn
    · rw [if_neg]
      intro hc
      have := hc.2
      unfold blocked at this
      rw [h.allow, h.prot hp] at this
      simp at this
    · rw [if_neg (fun hc => hn hc.1)]
  exact ⟨by rw [t1]; exact h.main, by rw [hR]; exact h.R, by rw [t1]; exact h.ls, by rw [t1]; exact h.mp, by rw [t1]; exact h.max,
    by rw [t2]; exact h.MN, by rw [t2]; exact h.SA, by rw [t2]; exact h.store, by rw [t2]; exact h.allow, by rw [t2]; exact h.rc,
    by rw [t6]; exact h.mprot, fun hp => by rw [t5]; exact h.prot hp⟩

theorem held_run {s0 : S} {prot : Bool} (mid : List (Env × Ros)) (s s' : S) (h : Held s0 prot s) (hr : run mid s = .ok s')
    (hm : ∀ x ∈ mid, x.2.CM = 1 ∧ (prot = true ∨ x.2.CD ≠ 7)) : Held s0 prot s' := by
  induction mid generalizing s with
  | nil => cases hr; exact h
  | cons x l ih =>
    obtain ⟨s1, h1, h2⟩ := bind_ok (x := cycle x.1 x.2 s) hr
    obtain ⟨p⟩ := cycle_phases h1
    have e1 : p.s1 = s := by
      have := p.read
      unfold memRead at this
      rw [h.rc] at this
      exact (Res.ok.inj this).symm
    exact ih s1 (held_tail p (by rw [e1]; exact h) (hm x (by simp)).1 (hm x (by simp)).2) h2 (fun y hy => hm y (by simp [hy]))

theorem run_append (a b : List (Env × Ros)) (s : S) : run (a ++ b) s = (run a s >>= fun t => run b t) := by
  induction a generalizing s with
  | nil => rfl
  | cons x l ih =>
    show (cycle x.1 x.2 s >>= fun t => run (l ++ b) t) = ((cycle x.1 x.2 s >>= fun t => run l t) >>= fun t => run b t)
    cases cycle x.1 x.2 s with
    | oob => rfl
    | ok t => exact ih t

/-- The write back of what was read. -/
theorem held_write {e : Env} {w : Ros} {s0 s s' : S} {prot : Bool} (h : Held s0 prot s) (hc : cycle e w s = .ok s') (hcm : w.CM = 0) (hcu : w.CU ≠ 1)
    (hv : ∀ i, s0.m.main i < 65536) :
    s'.m.main = s0.m.main ∧ s'.m.ls = s0.m.ls := by
  obtain ⟨p⟩ := cycle_phases hc
  have e1 : p.s1 = s := by
    have := p.read
    unfold memRead at this
    rw [h.rc] at this
    exact (Res.ok.inj this).symm
  obtain ⟨t1, -⟩ := tail_frame p
  have hctl := p.ctl
  rw [e1] at hctl
  unfold memCtl at hctl
  rw [if_pos (Or.inl hcm)] at hctl
  obtain ⟨u1, c1, hctl⟩ := bind_ok hctl
  obtain ⟨u2, c2, hctl⟩ := bind_ok hctl
  have hm2 : p.s2.m = u1.m := (request_K hctl).2.2.2.2.trans (setMN_K c2).2.2.2.2
  unfold writeBack Mem.put Mem.putMP at c1
  rw [h.allow, if_pos rfl, if_neg hcu, h.store] at c1
  simp only at c1
  obtain ⟨m, hm, c1⟩ := bind_ok c1
  obtain ⟨m1, hm1, hm⟩ := bind_ok hm
  split at hm1
  · cases hm1
    split at hm
    · cases hm
      cases c1
      rw [t1, hm2]
      refine ⟨?_, h.ls⟩
      show upd s.m.main s.a.MN s.r.R = s0.m.main
      rw [h.main, h.MN, h.R]
      exact upd_restore _ _ _ (Nat.mod_eq_of_lt (hv _))
    · simp at hm
  · simp at hm1

/-- **C59**: reading a location and, after any number of computing microinstructions that do not load R, writing it back
leaves main and local storage as they were; in between R holds the addressed byte. -/
theorem C59_read_regenerates (e0 e1 : Env) (w0 w1 : Ros) (mid : List (Env × Ros)) (s s' : S) (hp : Spec.pendingRead s)
    (hv : ∀ i, s.m.main i < 65536) (h0 : w0.CM = 1 ∧ w0.CU ≠ 1 ∧ w0.CD ≠ 7) (hm : ∀ x ∈ mid, x.2.CM = 1 ∧ x.2.CD ≠ 7)
    (h1 : w1.CM = 0 ∧ w1.CU ≠ 1) (hr : run ((e0, w0) :: mid ++ [(e1, w1)]) s = .ok s') :
    s'.m.main = s.m.main ∧ s'.m.ls = s.m.ls ∧
      ∃ t, run ((e0, w0) :: mid) s = .ok t ∧ t.r.R = s.m.main s.a.MN := by
  rw [run_append] at hr
  obtain ⟨t, ht, hr⟩ := bind_ok hr
  have ht' := ht
  obtain ⟨t0, c0, ht⟩ := bind_ok (x := cycle e0 w0 s) ht
  obtain ⟨p⟩ := cycle_phases c0
  obtain ⟨a1, a2, a3, a4, a5, a6, a7, a8, a9, a10, a11, a12, a13, a14, a15⟩ := memRead_pending p.read hp (by omega) h0.2.1
  have hh : Held s false p.s1 := ⟨a1, a2, a4, a3, a5, a7, a8, a9, a10, a11, a12, fun h => by simp at h⟩
  have hh0 := held_tail p hh h0.1 (Or.inr h0.2.2)
  have hh1 := held_run mid t0 t hh0 ht (fun x hx => ⟨(hm x hx).1, Or.inr (hm x hx).2⟩)
  obtain ⟨t1, c1, hr⟩ := bind_ok (x := cycle e1 w1 t) hr
  cases hr
  obtain ⟨r1, r2⟩ := held_write hh1 c1 h1.1 h1.2 hv
  exact ⟨r1, r2, t, ht', by rw [hh1.R]; exact Nat.mod_eq_of_lt (hv _)⟩

/-- **C57**, read-modify-write: for a protected location nothing the microinstructions between read and write back compute
gets into storage. -/
theorem C57_read_write_blocked (e0 e1 : Env) (w0 w1 : Ros) (mid : List (Env × Ros)) (s s' : S) (hp : Spec.pendingRead s) (hpr : Spec.protects s)
    (hv : ∀ i, s.m.main i < 65536) (h0 : w0.CM = 1 ∧ w0.CU ≠ 1) (hm : ∀ x ∈ mid, x.2.CM = 1)
    (h1 : w1.CM = 0 ∧ w1.CU ≠ 1) (hr : run ((e0, w0) :: mid ++ [(e1, w1)]) s = .ok s') : s'.m.main = s.m.main ∧ s'.m.ls = s.m.ls := by
  rw [run_append] at hr
  obtain ⟨t, ht, hr⟩ := bind_ok hr
  obtain ⟨t0, c0, ht⟩ := bind_ok (x := cycle e0 w0 s) ht
  obtain ⟨p⟩ := cycle_phases c0
  obtain ⟨a1, a2, a3, a4, a5, a6, a7, a8, a9, a10, a11, a12, a13, a14, a15⟩ := memRead_pending p.read hp (by omega) h0.2
  have hh : Held s true p.s1 := ⟨a1, a2, a4, a3, a5, a7, a8, a9, a10, a11, a12, fun _ => a13 hpr⟩
  have hh0 := held_tail p hh h0.1 (Or.inl rfl)
  have hh1 := held_run mid t0 t hh0 ht (fun x hx => ⟨hm x hx, Or.inl rfl⟩)
  obtain ⟨t1, c1, hr⟩ := bind_ok (x := cycle e1 w1 t) hr
  cases hr
  exact held_write hh1 c1 h1.1 h1.2 hv

/-- The read phase of a store microinstruction (CM = 2) on a pending request. -/
theorem memRead_store {w : Ros} {s s1 : S} (h : memRead w s = .ok s1) (hp : Spec.pendingRead s) (hcm : w.CM = 2) :
    s1.m = s.m ∧ s1.a = { s.a with allowWrite := true, readCall := false } ∧ s1.r.R = s.r.R ∧
      s1.r.Q = (s.r.Q &&& 0xf0) ||| (s.m.mp s.a.SA &&& 0xf) ∧ s1.c = s.c ∧
      (Spec.protects s → s1.l.stgProtReq = true) ∧ (¬ Spec.protects s → s1.l.stgProtReq = false) := by
  unfold memRead at h
  rw [hp.call, if_pos rfl] at h
  have hrc : readCheck s = .ok { s with l := { s.l with protectLoc := false, memProt := false, stgProtReq := false } } := by
    unfold readCheck checkMN
    simp only [badParity_spec, ok_bind]
    have g1 : Good s.a.M := hp.m
    have g2 : Good s.a.N := hp.n
    simp only [g1, g2, not_true, decide_false, Bool.or_false, Bool.false_eq_true, if_false, ok_bind]
    have : outOfRange { s with l := { s.l with protectLoc := false, memProt := false, stgProtReq := false } } = false := hp.range
    rw [this]
    simp
  rw [hrc, ok_bind] at h
  simp only [hp.main, true_and, true_or, if_true] at h
  obtain ⟨k1, k2⟩ := keyCheck_main w { s with l := { s.l with protectLoc := false, memProt := false, stgProtReq := false } } hp.main hp.sa hp.q
  by_cases hpr : Spec.protects s
  · rw [k1 hpr, ok_bind] at h
    simp only [hcm, ne_eq, not_true, false_and, if_false, ok_bind] at h
    have := Res.ok.inj h
    rw [← this]
    exact ⟨rfl, rfl, rfl, rfl, rfl, fun _ => rfl, fun h => absurd hpr h⟩
  · rw [k2 hpr, ok_bind] at h
    simp only [hcm, ne_eq, not_true, false_and, if_false, ok_bind] at h
    have := Res.ok.inj h
    rw [← this]
    exact ⟨rfl, rfl, rfl, rfl, rfl, fun h => absurd h hpr, fun _ => rfl⟩

/-- **C57**, store: a store microinstruction addressed to a protected location changes nothing in main storage, local
storage or the keys. -/
theorem C57_store_blocked (e : Env) (w : Ros) (s s' : S) (hp : Spec.pendingRead s) (hpr : Spec.protects s) (hcm : w.CM = 2)
    (h : cycle e w s = .ok s') : s'.m = s.m := by
  obtain ⟨p⟩ := cycle_phases h
  obtain ⟨a1, a2, a3, a4, a5, a6, a7⟩ := memRead_store p.read hp hcm
  obtain ⟨t1, -⟩ := tail_frame p
  have hctl := p.ctl
  unfold memCtl at hctl
  rw [if_neg (by rw [a6 hpr]; rw [hcm]; simp), ok_bind] at hctl
  obtain ⟨u2, c2, hctl⟩ := bind_ok hctl
  rw [t1, (request_K hctl).2.2.2.2, (setMN_K c2).2.2.2.2, a1]

/-- **C57**, the other way: a store to a location that is not protected writes R there and changes no other byte. -/
theorem C57_store_allowed (e : Env) (w : Ros) (s s' : S) (hp : Spec.pendingRead s) (hpr : ¬ Spec.protects s) (hcm : w.CM = 2) (hcu : w.CU ≠ 1)
    (h : cycle e w s = .ok s') : s'.m.main s.a.MN = s.r.R ∧ (∀ i, i ≠ s.a.MN → s'.m.main i = s.m.main i) ∧ s'.m.ls = s.m.ls := by
  obtain ⟨p⟩ := cycle_phases h
  obtain ⟨a1, a2, a3, a4, a5, a6, a7⟩ := memRead_store p.read hp hcm
  obtain ⟨t1, -⟩ := tail_frame p
  have hctl := p.ctl
  unfold memCtl at hctl
  rw [if_pos (Or.inr ⟨hcm, a7 hpr⟩)] at hctl
  obtain ⟨u1, c1, hctl⟩ := bind_ok hctl
  obtain ⟨u2, c2, hctl⟩ := bind_ok hctl
  have hm2 : p.s2.m = u1.m := (request_K hctl).2.2.2.2.trans (setMN_K c2).2.2.2.2
  unfold writeBack Mem.put Mem.putMP at c1
  rw [a2] at c1
  simp only [if_neg hcu, hp.main, if_true] at c1
  obtain ⟨m, hm, c1⟩ := bind_ok c1
  obtain ⟨m1, hm1, hm⟩ := bind_ok hm
  split at hm1
  · cases hm1
    split at hm
    · cases hm
      cases c1
      rw [t1, hm2]
      show upd p.s1.m.main s.a.MN p.s1.r.R s.a.MN = s.r.R ∧ (∀ i, i ≠ s.a.MN → upd p.s1.m.main s.a.MN p.s1.r.R i = s.m.main i) ∧ p.s1.m.ls = s.m.ls
      rw [a1, a3]
      refine ⟨by simp [upd], fun i hi => by simp [upd, hi], rfl⟩
    · simp at hm
  · simp at hm1

/-- **C57 violated**: when a protected location has been read and a microinstruction then tries to change R and the next one
stores (CM = 2), the store is suppressed but so is the write back: the location is left zero. -/
theorem C57_violated_location_cleared (e0 e1 : Env) (w0 w1 : Ros) (s s' : S) (hp : Spec.pendingRead s) (hpr : Spec.protects s)
    (h0 : w0.CM = 1 ∧ w0.CU ≠ 1 ∧ w0.CD = 7) (h1 : w1.CM = 2) (hr : run [(e0, w0), (e1, w1)] s = .ok s') :
    s'.m.main s.a.MN = 0 := by
  obtain ⟨t, c0, hr⟩ := bind_ok (x := cycle e0 w0 s) hr
  obtain ⟨t', c1, hr⟩ := bind_ok (x := cycle e1 w1 t) hr
  cases hr
  obtain ⟨p⟩ := cycle_phases c0
  obtain ⟨a1, a2, a3, a4, a5, a6, a7, a8, a9, a10, a11, a12, a13, a14, a15⟩ := memRead_pending p.read hp (by omega) h0.2.1
  have h2 : p.s2 = p.s1 := by
    have := p.ctl
    rw [compute_ctl p.s1 h0.1] at this
    exact (Res.ok.inj this).symm
  obtain ⟨t1, t2, t3, t4, t5, t6, t7, t8⟩ := tail_frame p
  rw [h2] at t1 t2 t8
  have hbl : blocked p.s1 = true := by unfold blocked; rw [a10, a13 hpr]; rfl
  rw [hbl, h0.2.2] at t8
  have hreq : t.l.stgProtReq = true := by rw [t8]; simp
  obtain ⟨p'⟩ := cycle_phases c1
  have e1 : p'.s1 = t := by
    have := p'.read
    unfold memRead at this
    rw [t2, a11] at this
    exact (Res.ok.inj this).symm
  obtain ⟨v1, -⟩ := tail_frame p'
  have hctl := p'.ctl
  rw [e1] at hctl
  unfold memCtl at hctl
  rw [if_neg (by rw [hreq, h1]; simp), ok_bind] at hctl
  obtain ⟨u2, c2, hctl⟩ := bind_ok hctl
  rw [v1, (request_K hctl).2.2.2.2, (setMN_K c2).2.2.2.2, t1, a1]
  simp [upd]

end Verif.Cpu30
