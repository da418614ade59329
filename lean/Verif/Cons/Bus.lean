import Verif.Cons.TypeProps
/-!
# The 1052 on the channel interface (C80)
-/
namespace Verif.Cons
open Verif.Bus
open Verif.Card (Res)

/-- The device has the interface, or answers busy, in every state but idle. -/
abbrev Disc (s : S) (t : Tags) (bo bi : Nat) (s' : S) (t' : Tags) (bi' : Nat) : Prop :=
  Bus.Spec.Disciplined (s.st ≠ .idle) (s'.st ≠ .idle) s.addr (s.request = true ∨ s.stacked = true) t bo bi t' bi'

section
variable {s s' : S} {t t' : Tags} {bo bi bi' : Nat}

theorem idle_disc (hs : s.st = .idle) (h : idle s t bo bi = (s', t', bi')) : Disc s t bo bi s' t' bi' := by
  unfold idle idleAddressed at h
  have hb1 := bytePar_good sBusy
  have hb2 := bytePar_good s.addr
  simp only at h
  repeat' split at h
  all_goals
    simp only [Prod.mk.injEq] at h
    obtain ⟨h1, h2, h3⟩ := h
    subst h1 h2 h3
    constructor <;> simp_all [Bus.Spec.outKept, Bus.Spec.raises, Bus.Spec.inKept]

/-- Disciplined for a call in a state other than idle. -/
theorem disc_of (hs : s.st ≠ .idle) (h1 : Bus.Spec.outKept t t') (h2 : bi' = bi ∨ Bus.Spec.goodParity bi') (h3 : Bus.Spec.raises t t' → s'.st ≠ .idle) :
    Disc s t bo bi s' t' bi' := ⟨h1, h2, h3, fun h => absurd hs h, fun h => absurd hs h⟩

theorem initSel_disc (hs : s.st = .initSel) (h : initSel s t = (s', t', bi')) : Disc s t bo bi s' t' bi' := by
  unfold initSel at h
  have hb2 := bytePar_good s.addr
  simp only at h
  repeat' split at h
  all_goals
    simp only [Prod.mk.injEq] at h
    obtain ⟨h1, h2, h3⟩ := h
    subst h1 h2 h3
    apply disc_of <;> simp_all [Bus.Spec.outKept, Bus.Spec.raises]

theorem command_disc (hs : s.st = .command) (h : command s t bo = (s', t', bi')) : Disc s t bo bi s' t' bi' := by
  have hb2 := bytePar_good s.addr
  have key : s'.addr = s'.addr ∧ Bus.Spec.outKept t t' ∧ bi' = bytePar s.addr ∧ ¬ Bus.Spec.raises t t' := by
    unfold command commandOut at h
    simp only at h
    repeat' split at h
    all_goals
      simp only [Prod.mk.injEq] at h
      obtain ⟨-, h2, h3⟩ := h
      subst h2 h3
      refine ⟨rfl, ?_, by rfl, ?_⟩ <;> simp_all [Bus.Spec.outKept, Bus.Spec.raises]
  obtain ⟨-, k1, k2, k3⟩ := key
  exact disc_of (by rw [hs]; decide) k1 (Or.inr (by rw [k2]; exact hb2)) (fun h => absurd h k3)

/-- A byte from `withPar` has good parity. -/
theorem withPar_good {v b : Nat} (h : withPar v = .ok b) : Bus.Spec.goodParity b ∧ b = Bus.Spec.byte v ∧ v < 256 := by
  by_cases hv : v < 256
  · rw [withPar_ok v hv] at h
    cases h
    exact ⟨byte_good v hv, rfl, hv⟩
  · rw [withPar_oob v (by omega)] at h
    cases h

theorem status_disc (hs : s.st = .status) (h : status s t = .ok (s', t', bi')) : Disc s t bo bi s' t' bi' := by
  unfold status at h
  obtain ⟨b, hw, h⟩ := bind_inv h
  obtain ⟨hg, -⟩ := withPar_good hw
  have h := Res.ok.inj h
  simp only [Prod.mk.injEq] at h
  obtain ⟨h1, h2, h3⟩ := h
  subst h1 h2 h3
  apply disc_of <;> simp_all [Bus.Spec.outKept, Bus.Spec.raises]

theorem statusAccept_disc (hs : s.st = .statusAccept) (h : statusAccept s t = .ok (s', t', bi')) : Disc s t bo bi s' t' bi' := by
  unfold statusAccept at h
  cases hw : withPar s.status with
  | ok b =>
    rw [hw] at h
    obtain ⟨hg, -⟩ := withPar_good hw
    simp only [Res.bind, statusAccepted] at h
    repeat' split at h
    all_goals
      simp only [Res.ok.injEq, Prod.mk.injEq] at h
      obtain ⟨h1, h2, h3⟩ := h
      subst h1 h2 h3
      apply disc_of <;> simp_all [Bus.Spec.outKept, Bus.Spec.raises]
  | oob => rw [hw] at h; cases h
  | fuel => rw [hw] at h; cases h

theorem statusWait_disc (hs : s.st = .statusWait) (h : statusWait s t bi = (s', t', bi')) : Disc s t bo bi s' t' bi' := by
  unfold statusWait at h
  simp only at h
  repeat' split at h
  all_goals
    simp only [Prod.mk.injEq] at h
    obtain ⟨h1, h2, h3⟩ := h
    subst h1 h2 h3
    apply disc_of <;> simp_all [Bus.Spec.outKept, Bus.Spec.raises]

theorem busyState_disc (hs : s.st = .busy) (h : busyState s t = (s', t', bi')) : Disc s t bo bi s' t' bi' := by
  have hb1 := bytePar_good sBusy
  unfold busyState at h
  simp only at h
  repeat' split at h
  all_goals
    simp only [Prod.mk.injEq] at h
    obtain ⟨h1, h2, h3⟩ := h
    subst h1 h2 h3
    apply disc_of <;> simp_all [Bus.Spec.outKept, Bus.Spec.raises]

theorem endStatus_disc (hs : s.st = .endStatus) (h : endStatus s t bi = .ok (s', t', bi')) : Disc s t bo bi s' t' bi' := by
  unfold endStatus at h
  simp only at h
  split at h
  · simp only [Res.ok.injEq, Prod.mk.injEq] at h
    obtain ⟨h1, h2, h3⟩ := h
    subst h1 h2 h3
    apply disc_of <;> simp_all [Bus.Spec.outKept, Bus.Spec.raises]
  · cases hw : withPar s.status with
    | ok b =>
      rw [hw] at h
      obtain ⟨hg, -⟩ := withPar_good hw
      simp only [Res.bind, Res.ok.injEq, Prod.mk.injEq] at h
      obtain ⟨h1, h2, h3⟩ := h
      subst h1 h2 h3
      apply disc_of <;> simp_all [Bus.Spec.outKept, Bus.Spec.raises]
    | oob => rw [hw] at h; cases h
    | fuel => rw [hw] at h; cases h

theorem endAccept_disc (hs : s.st = .endAccept) (h : endAccept s t = .ok (s', t', bi')) : Disc s t bo bi s' t' bi' := by
  unfold endAccept at h
  cases hw : withPar s.status with
  | ok b =>
    rw [hw] at h
    obtain ⟨hg, -⟩ := withPar_good hw
    simp only [Res.bind, endAccepted] at h
    repeat' split at h
    all_goals
      simp only [Res.ok.injEq, Prod.mk.injEq] at h
      obtain ⟨h1, h2, h3⟩ := h
      subst h1 h2 h3
      apply disc_of <;> simp_all [Bus.Spec.outKept, Bus.Spec.raises]
  | oob => rw [hw] at h; cases h
  | fuel => rw [hw] at h; cases h

theorem waitDevend_disc (hs : s.st = .waitDevend) (h : waitDevend s t bi = (s', t', bi')) : Disc s t bo bi s' t' bi' := by
  unfold waitDevend at h
  simp only at h
  repeat' split at h
  all_goals
    simp only [Prod.mk.injEq] at h
    obtain ⟨h1, h2, h3⟩ := h
    subst h1 h2 h3
    apply disc_of <;> simp_all [Bus.Spec.outKept, Bus.Spec.raises]

theorem opr_disc (hs : s.st = .opr) (h : opr s t bi = (s', t', bi')) : Disc s t bo bi s' t' bi' := by
  unfold opr at h
  simp only at h
  repeat' split at h
  all_goals
    simp only [Prod.mk.injEq] at h
    obtain ⟨h1, h2, h3⟩ := h
    subst h1 h2 h3
    apply disc_of <;> simp_all [Bus.Spec.outKept, Bus.Spec.raises]

theorem data1_disc (hs : s.st = .data1) (h : data1 s t bi = .ok (s', t', bi')) : Disc s t bo bi s' t' bi' := by
  unfold data1 at h
  simp only at h
  split at h
  · simp only [Res.ok.injEq, Prod.mk.injEq] at h
    obtain ⟨h1, h2, h3⟩ := h
    subst h1 h2 h3
    apply disc_of <;> simp_all [Bus.Spec.outKept, Bus.Spec.raises]
  · split at h
    · simp only [Res.ok.injEq, Prod.mk.injEq] at h
      obtain ⟨h1, h2, h3⟩ := h
      subst h1 h2 h3
      apply disc_of <;> simp_all [Bus.Spec.outKept, Bus.Spec.raises]
    · cases hw : withPar s.data with
      | ok b =>
        rw [hw] at h
        obtain ⟨hg, -⟩ := withPar_good hw
        simp only [Res.bind, Res.ok.injEq, Prod.mk.injEq] at h
        obtain ⟨h1, h2, h3⟩ := h
        subst h1 h2 h3
        apply disc_of <;> simp_all [Bus.Spec.outKept, Bus.Spec.raises]
      | oob => rw [hw] at h; cases h
      | fuel => rw [hw] at h; cases h

theorem data2_disc (hs : s.st = .data2) (h : data2 s t bo = .ok (s', t', bi')) : Disc s t bo bi s' t' bi' := by
  unfold data2 at h
  cases hw : withPar s.data with
  | ok b =>
    rw [hw] at h
    obtain ⟨hg, -⟩ := withPar_good hw
    simp only [Res.bind] at h
    split at h
    all_goals
      simp only [Res.ok.injEq, Prod.mk.injEq] at h
      obtain ⟨h1, h2, h3⟩ := h
      subst h2 h3
      apply disc_of
      · rw [hs]; decide
      · simp_all [Bus.Spec.outKept]
      · exact Or.inr hg
      · simp_all [Bus.Spec.raises]
  | oob => rw [hw] at h; cases h
  | fuel => rw [hw] at h; cases h

/-- **C80**: whatever the state of the device, the tags and the bus, a call of the bus function that does not leave
the parity table obeys the interface rules. -/
theorem C80_disciplined (h : dev s t bo bi = .ok (s', t', bi')) : Disc s t bo bi s' t' bi' := by
  unfold dev at h
  split at h
  · rename_i hr
    simp only [Res.ok.injEq, Prod.mk.injEq] at h
    obtain ⟨h1, h2, h3⟩ := h
    subst h1 h2 h3
    constructor
    · split <;> simp [Bus.Spec.outKept]
    · exact Or.inl rfl
    · intro hq; exfalso; revert hq; split <;> simp [Bus.Spec.raises]
    · intro _ hq; exact absurd rfl hq
    · intro _ _ hq; simp_all
  · cases hs : s.st <;> rw [hs] at h <;> simp only [Res.ok.injEq] at h
    · exact idle_disc hs h
    · exact busyState_disc hs h
    · exact initSel_disc hs h
    · exact command_disc hs h
    · exact status_disc hs h
    · exact statusAccept_disc hs h
    · exact statusWait_disc hs h
    · exact endStatus_disc hs h
    · exact endAccept_disc hs h
    · exact waitDevend_disc hs h
    · exact opr_disc hs h
    · exact data1_disc hs h
    · exact data2_disc hs h

end
end Verif.Cons
