import Verif.Ctl2844.Bus

/-!
# Parity of bus in, 2844 (C157)
-/

namespace Verif.Ctl2844

theorem parityOk_with (b : B) : parityOk (withParity b) = true := by
  revert b; decide +kernel

/-- Bus in is left alone, or shows a byte with odd parity. -/
def Fine (x y : T) : Prop := y = x ∨ parityOk y = true

theorem fine_ifAddr {x : T} {s : IF} (bo : T) (h : Fine x s.bin) : Fine x (ifAddr bo s).bin := by
  unfold ifAddr; repeat' split
  all_goals first | exact h | exact .inr (show parityOk 0x150#16 = true by decide)

theorem fine_ifDrop {x : T} {s : IF} (h : Fine x s.bin) : Fine x (ifDrop s).bin := by
  unfold ifDrop; split <;> exact h

theorem fine_ifSta {x : T} {s : IF} (h : Fine x s.bin) : Fine x (ifSta s).bin := by
  unfold ifSta; split <;> exact h

theorem fine_ifSel {x : T} {s : IF} (h : Fine x s.bin) : Fine x (ifSel s).bin := h

theorem fine_ifAdrIn {x : T} {s : IF} (h : Fine x s.bin) : Fine x (ifAdrIn s).bin := by
  unfold ifAdrIn; repeat' split
  all_goals first | exact h | exact .inr (parityOk_with _)

theorem fine_ifStaIn {x : T} {s : IF} (h : Fine x s.bin) : Fine x (ifStaIn s).bin := by
  unfold ifStaIn; split
  · cases hb : bit s.c.IG 7 <;> simp only [if_true, if_false, Bool.true_eq_false, Bool.false_eq_true] <;> split <;>
      first | exact h | exact .inr (parityOk_with _)
  · exact h

theorem fine_ifOprIn {x : T} {s : IF} (h : Fine x s.bin) : Fine x (ifOprIn s).bin := by
  unfold ifOprIn; split <;> exact h

theorem fine_ifReq {x : T} {s : IF} (h : Fine x s.bin) : Fine x (ifReq s).bin := by
  unfold ifReq; simp only [apply_ite IF.bin, ite_self]; exact h

theorem fine_ifPoll {x : T} {s : IF} (h : Fine x s.bin) : Fine x (ifPoll s).bin := by
  unfold ifPoll; split <;> exact h

theorem fine_ifEnd {x : T} {s : IF} (h : Fine x s.bin) : Fine x (ifEnd s).bin := by
  unfold ifEnd; split
  · simp only [apply_ite IF.bin, ite_self]
    split
    · exact .inr (parityOk_with _)
    · exact h
  · exact h

theorem data_bin (bo : T) (s : IF) (hs : s.c.selected = true) :
    (ifData bo s).bin = if s.c.svc_req && !s.c.srv_in then withParity s.c.DW else s.bin := by
  by_cases h : ((bit s.c.IG 2 && s.c.tr_1) || (bit s.c.IG 0 && (!s.c.srv_in || s.c.tr_1))) = true
  · unfold ifData
    simp only [hs, h, if_true]
    simp only [apply_ite IF.bin, ite_self]
  · rw [Bool.not_eq_true] at h
    unfold ifData
    simp only [hs, h, Bool.false_eq_true, if_false, if_true]
    simp only [apply_ite IF.bin, ite_self]

theorem fine_ifData {x : T} {s : IF} (bo : T) (h : Fine x s.bin) : Fine x (ifData bo s).bin := by
  cases hs : s.c.selected
  · unfold ifData; rw [hs]; exact h
  · rw [data_bin bo s hs]; split
    · exact .inr (parityOk_with _)
    · exact h

/-- **C157**: in any state and whatever the channel does, the control leaves bus in as it is or puts
a byte with good parity there. -/
theorem C157_parity (bo : T) (s : IF) : Fine s.bin (dev bo s).bin := by
  unfold dev
  split
  · exact .inl rfl
  · exact fine_ifData bo (fine_ifEnd (fine_ifPoll (fine_ifReq (fine_ifOprIn (fine_ifStaIn (fine_ifAdrIn (fine_ifSel (fine_ifSta
      (fine_ifDrop (fine_ifAddr bo (.inl rfl)))))))))))

/-- **C157** for histories: after any schedule of channel cycles and microinstructions bus in is as it
was, or shows a byte with good parity. -/
theorem C157_history (es : List Ev) (s s' : Line) (h : s.run es = .ok s') : Fine s.bin s'.bin := by
  induction es generalizing s with
  | nil => cases h; exact .inl rfl
  | cons e es ih =>
    have key : ∀ s1, s.next e = .ok s1 → Fine s.bin s1.bin := by
      intro s1 h1
      cases e with
      | micro =>
        show Fine _ _
        unfold Line.next at h1
        cases hs : step ros s.c with
        | ok c => rw [hs] at h1; cases h1; exact .inl rfl
        | oob => rw [hs] at h1; cases h1
        | null => rw [hs] at h1; cases h1
        | drive => rw [hs] at h1; cases h1
        | undef => rw [hs] at h1; cases h1
      | bus out bo =>
        unfold Line.next at h1
        cases h1
        exact C157_parity bo _
    unfold Line.run at h
    cases h1 : s.next e with
    | ok s1 =>
      rw [h1] at h
      rcases ih s1 h with q | q
      · rw [q]; exact key s1 h1
      · exact .inr q
    | oob => rw [h1] at h; cases h
    | null => rw [h1] at h; cases h
    | drive => rw [h1] at h; cases h
    | undef => rw [h1] at h; cases h

end Verif.Ctl2844
