import Verif.Ctl2844.Bus

/-!
# The 2844: writing

`step_2844` hands a local variable nobody has set to `dasd_write_byte`.
-/

namespace Verif.Ctl2844

theorem res_bind_some {α β : Type} {x : Card.Res α} {f : α → Card.Res β} {b : β} (h : x.bind f = .ok b) :
    ∃ a, x = .ok a ∧ f a = .ok b := by
  cases x with
  | ok a => exact ⟨a, rfl, h⟩
  | _ => cases h

/-- A byte time of a write takes a byte and leaves the parameter `am` alone. -/
theorem writeByte_am {d : Dasd.S} {io : Dasd.Io} {x : Dasd.S × Bool × Dasd.Io} (h : Dasd.writeByte d io = .ok x)
    (hs : d.ty.rate ≤ d.step) : x.2.1 = true ∧ x.2.2.am = io.am := by
  unfold Dasd.writeByte at h
  rw [if_neg (by omega)] at h
  unfold Dasd.wrTick at h
  obtain ⟨a, _, h⟩ := res_bind_some h
  cases h
  unfold Dasd.wrOut
  constructor
  · split <;> rfl
  · split <;> dsimp only <;> split <;> rfl

/-- A byte time of a drive under write gate with the check bytes on never has a defined outcome. -/
theorem write_undefined (c : Ctx) (i : BitVec 3) (d : Dasd.S) (hd : c.disk i = some d) (hg : gated c i = true)
    (hr : c.FC &&& 0x40#8 = 0#8) (hw : c.FC &&& 0x80#8 ≠ 0#8) (hk : c.FT &&& 0x08#8 ≠ 0#8) (hs : d.ty.rate ≤ d.step) :
    walkOne c i = .undef ∨ walkOne c i = .drive := by
  unfold walkOne
  rw [hd]
  dsimp only
  rw [if_pos hg]
  unfold selDrive
  rw [if_neg (by simp [hr]), if_pos hw]
  unfold unset
  generalize ha : Dasd.writeByte d { data := c.DR.toNat, am := false, ix := false } = x
  generalize hb : Dasd.writeByte d { data := c.DR.toNat, am := true, ix := false } = y
  cases x with
  | ok a =>
    cases y with
    | ok b =>
      refine .inl ?_
      have h1 := writeByte_am ha hs
      have h2 := writeByte_am hb hs
      have : agree (decide (c.FT &&& 0x08#8 ≠ 0#8)) a b = false := by
        unfold agree
        rw [decide_eq_false_iff_not]
        rintro ⟨_, _, _, h⟩
        have := (h h1.1).2 (by simp [hk])
        rw [h1.2, h2.2] at this
        cases this
      simp only [ofRes, Out.bind_ok, this]
      rfl
    | _ => exact .inr rfl
  | _ => exact .inr rfl

end Verif.Ctl2844
