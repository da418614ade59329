import Verif.Cpu50.End
import Verif.Cpu50.Words2
import Verif.Cpu50.Arith

/-!
# Model 2050: last microinstructions of the fixed point operations

The RR and RX forms of an operation share these.
-/

namespace Verif.Cpu50
open Verif.S360
attribute [local irreducible] ros

theorem AtEnd.upd {e : Env} {tk : Bool} {a a' : Arch} {s s' : S} (h : AtEnd e tk a s)
    (hc : Calm e tk s') (harch : archOf s' = a') (hm : a'.mem = a.mem) (hia : a'.ia = a.ia)
    (hF : s'.F = s.F) (hi : s'.IVA = s.IVA) (hr : s'.REFETCH = s.REFETCH)
    (hl : s'.LS 30 = s.LS 30) (hs : s'.SYLS1 = s.SYLS1) : AtEnd e tk a' s' := by
  refine ⟨hc, harch, by rw [hF]; exact h.f, by rw [hi]; exact h.iva, ?_⟩
  intro h1 h2
  rw [hia] at h1
  rw [hr] at h2
  rw [hl, hs, hm, hia]
  exact h.odd h1 h2

theorem InStore.same {e : Env} {a a' : Arch} (h : InStore e a) (hia : a'.ia = a.ia) :
    InStore e a' := ⟨by rw [hia]; exact h.ev, by rw [hia]; exact h.rg⟩

/-- Change of a general register in local storage. -/
theorem gr_put (ls : BitVec 6 → W) (r : BitVec 4) (v : W) :
    (fun i : BitVec 4 => lsPut ls (3#2 ++ r) v (3#2 ++ i)) =
      fun i => if i = r then v else ls (3#2 ++ i) := by
  funext i
  simp only [lsPut, gr_eq]

theorem fr_put (ls : BitVec 6 → W) (r : BitVec 4) (v : W) :
    (fun i : BitVec 4 => lsPut ls (3#2 ++ r) v (2#2 ++ i)) = fun i => ls (2#2 ++ i) := by
  funext i
  simp only [lsPut, fr_eq, if_false]

theorem sys_put (ls : BitVec 6 → W) (r : BitVec 4) (v : W) :
    lsPut ls (3#2 ++ r) v 23#6 = ls 23#6 := by
  have h : ¬ (23#6 = 3#2 ++ r) := by revert r; decide
  simp only [lsPut]; exact if_neg h

theorem ls30_put (ls : BitVec 6 → W) (r : BitVec 4) (v : W) :
    lsPut ls (3#2 ++ r) v 30 = ls 30 := by
  have h : ¬ (30#6 = 3#2 ++ r) := fun h => by
    have := gr_ne30 r
    rw [← h] at this; simp at this
  simp only [lsPut]; exact if_neg h

theorem gr_of {a : Arch} {s : S} (h : archOf s = a) (r : BitVec 4) : s.LS (3#2 ++ r) = a.gr r := by
  rw [← h]; rfl

/-- Overflow: the condition code becomes 3. -/
theorem ovf_tail {e : Env} {tk : Bool} {a a' : Arch} {s : S} (ho : EnvOk e) (h : AtEnd e tk a s)
    (hi : InStore e a) (hr : s.ROAR = 0x21b) (hm : byteOf s.M s.MB = 8#8) (hf : s.mvf = 2)
    (hp : a.pm.getLsbD 3 = false) (ha : a.setCC 3 = a') : Ev e tk (Bd e tk a') s := by
  subst ha
  refine Ev.plain ho h.calm hr (by rw [w21b]; decide) (fun t => x21b e _ _)
    (fun t => by unfold memPart; rfl) fun t ht hc => ?_
  refine Ev.plain ho hc rfl (by rw [w248]; decide) (fun t => x248 e _ _)
    (fun t => by unfold memPart; rfl) fun t2 ht2 hc2 => ?_
  have hpm : s.PMASK = a.pm := by rw [← h.arch]; rfl
  refine end_a (n := 0x21a) (a := a.setCC 3) ho (h.upd hc2 ?_ rfl rfl rfl rfl rfl rfl rfl)
    (hi.same rfl) ?_ (by rw [w21a, w144])
  · rw [← h.arch]; rfl
  · simp only [bg, hm, hf, hpm]
    have h0 : ∀ (p : BitVec 4) (i c : BitVec 2), p.getLsbD 3 = false →
        (mvfL 2 (BitVec.setWidth 8 i <<< 6 ||| BitVec.setWidth 8 c <<< 4 ||| BitVec.setWidth 8 p) 8#8
        ||| mvfR 2 (BitVec.setWidth 8 i <<< 6 ||| BitVec.setWidth 8 c <<< 4 ||| BitVec.setWidth 8 p) 8#8)
          = 0#8 := by decide +kernel
    rw [h0 a.pm _ _ hp]; rfl

theorem fixed_fits {a : Arch} {r : BitVec 4} {v : Int} (h : fits v) :
    fixed a r v = some ((a.put r (BitVec.ofInt 32 v)).setCC (ccSign v)) := if_pos h

theorem fixed_over {a a' : Arch} {r : BitVec 4} {v : Int} (h : ¬ fits v)
    (hf : fixed a r v = some a') : a.pm.getLsbD 3 = false ∧
      a' = (a.put r (BitVec.ofInt 32 v)).setCC 3 := by
  unfold fixed at hf
  rw [if_neg (show ¬ (-2 ^ 31 ≤ v ∧ v < 2 ^ 31) from h)] at hf
  cases hp : a.pm.getLsbD 3 with
  | true => rw [hp] at hf; cases hf
  | false =>
    rw [hp] at hf
    exact ⟨rfl, (Option.some.inj hf).symm⟩

theorem byteOf_put (x : W) (b : BitVec 2) (v : B) : byteOf (putByte x b v) b = v := by
  have : ∀ b : BitVec 2, b = 0 ∨ b = 1 ∨ b = 2 ∨ b = 3 := by decide
  rcases this b with h | h | h | h <;> subst h <;>
    (apply BitVec.eq_of_getLsbD_eq; intro i hi; interval_cases i <;> simp [byteOf, putByte])

/-- Word 220: add. -/
theorem add_tail {e : Env} {tk : Bool} {a a' : Arch} {r : BitVec 4} {s : S} (ho : EnvOk e)
    (h : AtEnd e tk a s) (hi : InStore e a) (hr : s.ROAR = 0x220) (hn : s.FN = 3#2) (hj : s.J = r)
    (hf : s.mvf = 2) (hv : fixed a r (s.R.toInt + s.L.toInt) = some a') :
    Ev e tk (Bd e tk a') s := by
  refine Ev.plain ho h.calm hr (by rw [w220]; decide) (fun t => x220 e _ _)
    (fun t => by unfold memPart; rfl) fun t ht hc => ?_
  obtain rfl := h.arch
  have hov := ovf_add s.L s.R
  by_cases hfit : fits (s.R.toInt + s.L.toInt)
  · rw [fixed_fits hfit] at hv
    obtain rfl := Option.some.inj hv
    refine end_a (n := 0x21a) ho (h.upd hc ?_ rfl rfl rfl rfl rfl ?_ rfl) (hi.same rfl) ?_
      (by rw [w21a, w144])
    · rw [ofInt_add, ← add_toInt hfit]
      simp only [archOf, bg, hn, hj, gr_put, fr_put, sys_put, Arch.put, Arch.setCC, cc_sign]
    · simp only [bg, hn, ls30_put]
    · simp only [bg, hov, hfit]; rfl
  · obtain ⟨hp, rfl⟩ := fixed_over hfit hv
    refine ovf_tail ho (h.upd hc rfl rfl rfl rfl rfl rfl ?_ rfl) (hi.same rfl) ?_ ?_ hf hp ?_
    · simp only [bg, hn, ls30_put]
    · simp only [bg, hov, hfit]; rfl
    · exact byteOf_put _ _ _
    · rw [ofInt_add]
      simp only [archOf, bg, hn, hj, gr_put, fr_put, sys_put, Arch.put, Arch.setCC]

/-- Word 221: subtract. -/
theorem sub_tail {e : Env} {tk : Bool} {a a' : Arch} {r : BitVec 4} {s : S} (ho : EnvOk e)
    (h : AtEnd e tk a s) (hi : InStore e a) (hr : s.ROAR = 0x221) (hn : s.FN = 3#2) (hj : s.J = r)
    (hf : s.mvf = 2) (hv : fixed a r (s.R.toInt - s.L.toInt) = some a') :
    Ev e tk (Bd e tk a') s := by
  refine Ev.plain ho h.calm hr (by rw [w221]; decide) (fun t => x221 e _ _)
    (fun t => by unfold memPart; rfl) fun t ht hc => ?_
  obtain rfl := h.arch
  have hov := ovf_sub s.L s.R
  by_cases hfit : fits (s.R.toInt - s.L.toInt)
  · rw [fixed_fits hfit] at hv
    obtain rfl := Option.some.inj hv
    refine end_a (n := 0x21a) ho (h.upd hc ?_ rfl rfl rfl rfl rfl ?_ rfl) (hi.same rfl) ?_
      (by rw [w21a, w144])
    · rw [ofInt_sub, ← sub_toInt hfit]
      simp only [archOf, bg, hn, hj, gr_put, fr_put, sys_put, Arch.put, Arch.setCC, cc_sign, sub_eq]
    · simp only [bg, hn, ls30_put]
    · simp only [bg, hov, hfit]; rfl
  · obtain ⟨hp, rfl⟩ := fixed_over hfit hv
    refine ovf_tail ho (h.upd hc rfl rfl rfl rfl rfl rfl ?_ rfl) (hi.same rfl) ?_ ?_ hf hp ?_
    · simp only [bg, hn, ls30_put]
    · simp only [bg, hov, hfit]; rfl
    · exact byteOf_put _ _ _
    · rw [ofInt_sub]
      simp only [archOf, bg, hn, hj, gr_put, fr_put, sys_put, Arch.put, Arch.setCC, sub_eq]

/-- The last microinstruction of an operation, with `SMIF`. -/
theorem end_b {e : Env} {tk : Bool} {a a' : Arch} {s s' : S} {ex : Bool} (ho : EnvOk e)
    (h : AtEnd e tk a s) (hi : InStore e a) (hex : tk = false → ex = false)
    (hq : tk = false → exc s' = false) (h3 : s'.ms = .w1)
    (harch : archOf s' = a') (hm : a'.mem = a.mem) (hia : a'.ia = a.ia)
    (hl : s'.LS 30 = s.LS 30)
    (h1 : s'.initBump = s.initBump) (h2 : s'.updD = s.updD)
    (hF : s'.F = s.F) (hr : s'.REFETCH = s.REFETCH) (hs : s'.SYLS1 = s.SYLS1)
    (hiva : s'.IVA = (s.IVA || (s.REFETCH || !s.IA &&& 2#32 != 0#32) &&
      decide (e.memMax < ifAddr s.REFETCH s.IA)))
    (him : s'.initMem = (s.initMem || (s.REFETCH || !s.IA &&& 2#32 != 0#32) &&
      !decide (e.memMax < ifAddr s.REFETCH s.IA)))
    (hsar : s'.SAR = if s.REFETCH = false ∧ ¬s.IA &&& 2#32 = 0#32 then s.SAR
      else ifAddr s.REFETCH s.IA)
    (hroar : s'.ROAR = 324 ||| 2 * (ex || s.IA &&& 2#32 == 0#32).toNat +
      (ex || s.IA &&& 2#32 != 0#32 && s.REFETCH).toNat) : Ev e tk (Bd e tk a') s' := by
  have hIA : s.IA = a.ia := by rw [← h.arch]; rfl
  have hIA' : s'.IA = s.IA := by
    have h5 : s'.IA = a'.ia := by rw [← harch]; rfl
    rw [h5, hia, hIA]
  obtain ⟨hr1, hr2⟩ := ifAddr_rg ho hi s.REFETCH
  have hle : decide (e.memMax < ifAddr s.REFETCH s.IA) = false := by
    rw [decide_eq_false_iff_not, BitVec.lt_def, hIA]; omega
  rw [hle] at hiva him
  refine end_smif (ex := ex) ho ?_ (hi.same hia) hex
  exact {
    ib := h1.trans h.calm.ib
    ud := h2.trans h.calm.ud
    ms := h3
    qt := hq
    arch := harch
    f := by rw [hF]; exact h.f
    iva := by rw [hiva, h.iva]; simp
    odd := by
      intro h6 h7
      rw [hia] at h6
      rw [hr] at h7
      rw [hl, hs, hm, hia]
      exact h.odd h6 h7
    roar := by rw [hroar, hIA', hr]
    im := by rw [him, hIA', hr, h.calm.im]; simp
    sar := by
      intro h6
      rw [hr, hIA'] at h6
      rw [hsar, hr, hIA', if_neg]
      rintro ⟨h7, h8⟩
      rcases h6 with h6 | h6
      · rw [h6] at h7; cases h7
      · exact h8 h6 }

/-- Word 2a0: load. -/
theorem lr_tail {e : Env} {tk : Bool} {a : Arch} {r : BitVec 4} {s : S} (ho : EnvOk e)
    (h : AtEnd e tk a s) (hi : InStore e a) (hr : s.ROAR = 0x2a0) (hn : s.FN = 3#2)
    (hd : s.MD = r) : Ev e tk (Bd e tk (a.put r s.L)) s := by
  refine Ev.wait ho h.calm hr (by rw [w2a0]; decide) (by rw [w2a0]; decide)
    (fun tu sa ex => x2a0 e _ _) fun tu sa ex hex hc => ?_
  obtain rfl := h.arch
  refine end_b ho h hi hex hc.qt rfl ?_ rfl rfl ?_ rfl rfl rfl rfl rfl rfl rfl rfl rfl
  · simp only [archOf, hn, hd, gr_put, fr_put, sys_put, Arch.put]
  · simp only [hn, ls30_put]

end Verif.Cpu50
