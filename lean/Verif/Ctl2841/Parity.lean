import Verif.Ctl2841.Latch

/-!
# Parity of bus in and lines of the 2841 (C157)
-/

namespace Verif.Ctl2841
open Verif.Ctl2844

theorem parityOk_with (b : B) : parityOk (withParity b) = true := by
  revert b; decide +kernel

/-- Bus in is left alone, or shows a byte with odd parity. -/
def Fine (x y : T) : Prop := y = x ∨ parityOk y = true

theorem fine_ifAsk {x : T} {s : IF} (h : Fine x s.bin) : Fine x (ifAsk s).bin := by
  unfold ifAsk; repeat' split
  all_goals first | exact h | exact .inr (parityOk_with _)

theorem fine_ifAdrIn {x : T} {s : IF} (h : Fine x s.bin) : Fine x (ifAdrIn s).bin := by
  unfold ifAdrIn; repeat' split
  all_goals first | exact h | exact .inr (parityOk_with _)

theorem fine_ifSta {x : T} {s : IF} (h : Fine x s.bin) : Fine x (ifSta s).bin := by
  unfold ifSta; repeat' split
  all_goals first | exact h | exact .inr (parityOk_with _)

theorem fine_ifSel {x : T} {s : IF} (h : Fine x s.bin) : Fine x (ifSel s).bin := by
  unfold ifSel; repeat' split
  all_goals first | exact h | exact .inr (parityOk_with _)

theorem fine_ifDrop {x : T} {s : IF} (h : Fine x s.bin) : Fine x (ifDrop s).bin := by
  unfold ifDrop; repeat' split
  all_goals first | exact h | exact .inr (parityOk_with _)

theorem fine_ifOprIn {x : T} {s : IF} (h : Fine x s.bin) : Fine x (ifOprIn s).bin := by
  unfold ifOprIn; repeat' split
  all_goals first | exact h | exact .inr (parityOk_with _)

theorem fine_ifPoll {x : T} {s : IF} (h : Fine x s.bin) : Fine x (ifPoll s).bin := by
  unfold ifPoll; repeat' split
  all_goals first | exact h | exact .inr (parityOk_with _)

theorem fine_ifReq {x : T} {s : IF} (h : Fine x s.bin) : Fine x (ifReq s).bin := by
  unfold ifReq; repeat' split
  all_goals first | exact h | exact .inr (parityOk_with _)

theorem fine_ifEnd {x : T} {s : IF} (h : Fine x s.bin) : Fine x (ifEnd s).bin := by
  unfold ifEnd; repeat' split
  all_goals first | exact h | exact .inr (parityOk_with _)

theorem data2_bin (s : IF) : (data2 s).bin = if s.c.tr_2 then withParity s.c.DW else s.bin := by
  by_cases h : ((bit s.c.IG 2 && s.c.tr_1) || (bit s.c.IG 0 && !s.c.srv_in)) = true
  · unfold data2
    simp only [h, if_true]
    simp only [apply_ite IF.bin, ite_self]
  · rw [Bool.not_eq_true] at h
    unfold data2
    simp only [h, Bool.false_eq_true, if_false]
    simp only [apply_ite IF.bin, ite_self]

theorem fine_data2 {x : T} {s : IF} (h : Fine x s.bin) : Fine x (data2 s).bin := by
  rw [data2_bin]; split
  · exact .inr (parityOk_with _)
  · exact h

theorem fine_data3 {x : T} {s : IF} (h : Fine x s.bin) : Fine x (data3 s).bin := by
  unfold data3; repeat' split
  all_goals first | exact h | exact .inr (parityOk_with _)

theorem fine_ifAddr {x : T} {s : IF} (bo : T) (h : Fine x s.bin) : Fine x (ifAddr bo s).bin := by
  unfold ifAddr; simp only [apply_ite IF.bin, ite_self]
  repeat' split
  all_goals first | exact h | exact .inr (by decide)

theorem fine_data1 {x : T} {s : IF} (bo : T) (h : Fine x s.bin) : Fine x (data1 bo s).bin := by
  unfold data1; dsimp only; repeat' split
  all_goals first | exact h | exact .inr (parityOk_with _) | exact .inr (by decide)

theorem fine_ifData {x : T} {s : IF} (bo : T) (h : Fine x s.bin) : Fine x (ifData bo s).bin := by
  unfold ifData; split
  · exact fine_data3 (fine_data2 (fine_data1 bo h))
  · exact h

/-- **C157**: in any state and whatever the channel does, the control leaves bus in as it is or puts
a byte with good parity there. -/
theorem C157_parity (bo : T) (s : IF) : Fine s.bin (dev bo s).bin := by
  unfold dev
  split
  · exact .inl rfl
  · exact fine_ifData bo (fine_ifEnd (fine_ifReq (fine_ifPoll (fine_ifOprIn (fine_ifDrop (fine_ifAddr bo (fine_ifSel (fine_ifSta
      (fine_ifAdrIn (fine_ifAsk (.inl rfl)))))))))))

/-- **C157** for histories: after any schedule of channel cycles and microinstructions bus in is as it
was, or shows a byte with good parity. -/
theorem C157_history (es : List Ev) (s s' : Line) (h : s.run es = .ok s') : Fine s.bin s'.bin := by
  induction es generalizing s with
  | nil => cases h; exact .inl rfl
  | cons e es ih =>
    have key : ∀ s1, s.next e = .ok s1 → Fine s.bin s1.bin := by
      intro s1 h1
      cases e with
      | micro =>
        show Fine _ _
        unfold Line.next at h1
        cases hs : step ros s.c with
        | ok c => rw [hs] at h1; cases h1; exact .inl rfl
        | oob => rw [hs] at h1; cases h1
        | null => rw [hs] at h1; cases h1
        | drive => rw [hs] at h1; cases h1
        | undef => rw [hs] at h1; cases h1
      | bus out bo =>
        unfold Line.next at h1
        cases h1
        exact C157_parity bo _
    unfold Line.run at h
    cases h1 : s.next e with
    | ok s1 =>
      rw [h1] at h
      rcases ih s1 h with q | q
      · rw [q]; exact key s1 h1
      · exact .inr q
    | oob => rw [h1] at h; cases h
    | null => rw [h1] at h; cases h
    | drive => rw [h1] at h; cases h
    | undef => rw [h1] at h; cases h

/-- The busy answer and the address on the bus in are such bytes; a byte with wrong parity is not. -/
example : parityOk 0x150#16 = true ∧ parityOk (withParity 0x90#8) = true ∧ parityOk 0x190#16 = true ∧ parityOk 0x90#16 = false := by decide

end Verif.Ctl2841
