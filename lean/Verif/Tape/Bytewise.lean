import Verif.Tape.Props
/-! # The buffer is invisible (C31)

The specification is a file with a position: no window, no flush. -/
namespace Verif.Tape

/-- Byte operations.  As tape_read_forw and tape_write_start do, the forward ones clear the load point flag. -/
inductive BOp where
  | read
  | peek
  | write (x : Nat)
  | back
deriving Repr, DecidableEq

def bstep (b : Buf) : BOp → Res (St × Option Nat × Buf)
  | .read => do
    let (s, x, b) ← readByte { b with bot := false } 0
    .ok (s, if s = .ok then some x else none, b)
  | .peek => do
    let (s, x, b) ← peekByte { b with bot := false } 0
    .ok (s, if s = .ok then some x else none, b)
  | .write x => do
    let (s, b) ← writeByte { b with bot := false } x
    .ok (s, none, b)
  | .back => do
    let (s, x, b) ← readbkByte b 0
    .ok (s, if s = .ok then some x else none, b)

def brun : List BOp → Buf → Res (List (St × Option Nat) × Buf)
  | [], b => .ok ([], b)
  | o :: l, b => do
    let (s, x, b) ← bstep b o
    let (r, b) ← brun l b
    .ok ((s, x) :: r, b)

/-- Content of the file and position of the head. -/
structure FileAt where
  c : List Nat
  p : Nat

def fileStep (s : FileAt) : BOp → (St × Option Nat) × FileAt
  | .read => if h : s.p < s.c.length then ((.ok, some s.c[s.p]), { s with p := s.p + 1 }) else ((.eot, none), s)
  | .peek => if h : s.p < s.c.length then ((.ok, some s.c[s.p]), s) else ((.eot, none), s)
  | .write x => ((.ok, none), { c := s.c.take s.p ++ [x] ++ s.c.drop (s.p + 1), p := s.p + 1 })
  | .back => if h : 0 < s.p ∧ s.p - 1 < s.c.length then ((.ok, some (s.c[s.p - 1]'h.2)), { s with p := s.p - 1 })
      else ((.bot, none), s)

def fileRun : List BOp → FileAt → List (St × Option Nat) × FileAt
  | [], s => ([], s)
  | o :: l, s =>
    let r := fileStep s o
    let q := fileRun l r.2
    (r.1 :: q.1, q.2)

/-- No write directly after a successful read: `j` says that the last operation was one. -/
def NoWriteAfterRead : Bool → List BOp → FileAt → Prop
  | _, [], _ => True
  | j, o :: l, s => (∀ x, o = .write x → j = false) ∧
      NoWriteAfterRead (decide (o = .read) && decide (s.p < s.c.length)) l (fileStep s o).2

theorem brun_file : ∀ (ops : List BOp) (b : Buf) (s : FileAt) (j : Bool), Rep b s.c s.p → b.writable = true →
    (j = false → ¬ CleanEnd b) → (b.bot = true → s.p = 0) → NoWriteAfterRead j ops s →
    ∃ b', brun ops b = .ok ((fileRun ops s).1, b') ∧ Rep b' (fileRun ops s).2.c (fileRun ops s).2.p := by
  intro ops
  induction ops with
  | nil => intro b s j h _ _ _ _; exact ⟨b, rfl, h⟩
  | cons o l ih =>
    intro b s j h hw hc hb hn
    obtain ⟨hn1, hn2⟩ := hn
    have step : ∃ b1, bstep b o = .ok ((fileStep s o).1.1, (fileStep s o).1.2, b1) ∧
        Rep b1 (fileStep s o).2.c (fileStep s o).2.p ∧ b1.writable = true ∧
        ((decide (o = .read) && decide (s.p < s.c.length)) = false → ¬ CleanEnd b1) ∧
        (b1.bot = true → (fileStep s o).2.p = 0) := by
      have hW := W_pos
      have hpl := h.pos_le
      have h' := h.clrBot false
      cases o with
      | read =>
        by_cases hp : s.p < s.c.length
        · obtain ⟨b1, e, r, _, q2, q3, _⟩ := readByte_ok h' 0 hp
          simp only [fileStep, dif_pos hp, bstep, e, bind_ok]
          exact ⟨b1, by simp, r, q3.trans hw, by simp [hp], by intro q; rw [q2] at q; cases q⟩
        · obtain ⟨b1, e, r, _, q2, q3, q4, _⟩ := readByte_end h' 0 (by omega)
          simp only [fileStep, dif_neg hp, bstep, e, bind_ok]
          exact ⟨b1, by simp, r, q3.trans hw, fun _ => (by rintro ⟨q, _⟩; omega), by intro q; rw [q2] at q; cases q⟩
      | peek =>
        by_cases hp : s.p < s.c.length
        · obtain ⟨b1, e, r, _, q2, q3, _, q4⟩ := peekByte_ok h' 0 hp
          simp only [fileStep, dif_pos hp, bstep, e, bind_ok]
          exact ⟨b1, by simp, r, q3.trans hw, fun _ => (by rintro ⟨q, _⟩; omega), by intro q; rw [q2] at q; cases q⟩
        · obtain ⟨b1, e, r, _, q2, q3, q4, _⟩ := peekByte_end h' 0 (by omega)
          simp only [fileStep, dif_neg hp, bstep, e, bind_ok]
          exact ⟨b1, by simp, r, q3.trans hw, fun _ => (by rintro ⟨q, _⟩; omega), by intro q; rw [q2] at q; cases q⟩
      | write x =>
        obtain ⟨b1, e, r, _, q2, q3, q4⟩ := writeByte_ok h' hw (hc (hn1 x rfl)) x
        simp only [fileStep, bstep, e, bind_ok]
        exact ⟨b1, rfl, r, q3.trans hw, fun _ => (by rintro ⟨_, q⟩; rw [q4] at q; cases q), by intro q; rw [q2] at q; cases q⟩
      | back =>
        by_cases hp : 0 < s.p
        · have hbf : b.bot = false := by
            cases q : b.bot
            · rfl
            · have := hb q; omega
          obtain ⟨b1, e, r, _, q2, q3, _, q4⟩ := readbkByte_ok h 0 hbf hp
          simp only [fileStep, dif_pos (show 0 < s.p ∧ s.p - 1 < s.c.length by omega), bstep, e, bind_ok]
          exact ⟨b1, by simp, r, q3.trans hw, fun _ => (by rintro ⟨q, _⟩; omega), by intro q; rw [q2] at q; cases q⟩
        · have h0 : s.p = 0 := by omega
          rw [h0] at h
          obtain ⟨x, b1, e, r, q1, _, q3, q4⟩ := readbkByte_bot h 0
          simp only [fileStep, dif_neg (show ¬ (0 < s.p ∧ s.p - 1 < s.c.length) by omega), bstep, e, bind_ok]
          exact ⟨b1, by simp, by rw [h0]; exact r, q3.trans hw, fun _ => (by rintro ⟨q, _⟩; omega), fun _ => h0⟩
    obtain ⟨b1, e1, r1, w1, c1, k1⟩ := step
    obtain ⟨b2, e2, r2⟩ := ih b1 (fileStep s o).2 _ r1 w1 c1 k1 hn2
    refine ⟨b2, ?_, r2⟩
    simp only [brun, e1, bind_ok, e2, fileRun]

/-- C31: every sequence of byte operations on a mounted file shows what direct access to the file shows, and unmounting
leaves that file.  Missing: a write directly after a read (`C31_violated_append`). -/
theorem C31_buffer_invisible_partial (t : Tape) (hb : t.b.buffer.length = W) (file : List Nat) (f : Fmt) (den : Bool)
    (ops : List BOp) (hn : NoWriteAfterRead false ops ⟨file, 0⟩) :
    ∃ b', brun ops (attach t file f true den).b = .ok ((fileRun ops ⟨file, 0⟩).1, b') ∧
      (detach { attach t file f true den with b := b' }).b.file = (fileRun ops ⟨file, 0⟩).2.c := by
  have h0 := (attach_rel t f true den [] file hb (by simp))
  simp only [images_nil, List.nil_append] at h0
  obtain ⟨b', e, r⟩ := brun_file ops _ ⟨file, 0⟩ false h0.drive.rep rfl (fun _ => h0.clean rfl) (fun _ => rfl) hn
  exact ⟨b', e, detach_file r⟩

example : NoWriteAfterRead false [.read, .read, .back, .write 9, .peek, .write 8, .back, .back] ⟨[1, 2, 3], 0⟩ := by
  simp [NoWriteAfterRead, fileStep]
example : (fileRun [.read, .read, .back, .write 9, .peek, .write 8, .back, .back] ⟨[1, 2, 3], 0⟩).2.c = [1, 9, 8] := rfl

/-! ## The violation -/

def Post {α : Type} (x : Res α) (P : α → Prop) : Prop := ∀ a, x = .ok a → P a

theorem Post.bind {α β : Type} {x : Res α} {g : α → Res β} {P : α → Prop} {Q : β → Prop} (h : Post x P)
    (hg : ∀ a, P a → Post (g a) Q) : Post (x >>= g) Q := by
  intro b hb
  obtain ⟨a, e, hb⟩ := bind_eq_ok hb
  exact hg a (h a e) b hb

theorem Post.ok {α : Type} {a : α} {P : α → Prop} (h : P a) : Post (.ok a) P := by
  intro b hb; obtain rfl := Res.ok.inj hb; exact h

/-- A file of exactly one window has been read, nothing else. -/
structure OneWin (b : Buf) : Prop where
  clean : b.dirty = false
  len : b.file.length = W
  win : b.eot = true ∨ b.pos = 0 ∧ (b.lenBuff = W ∨ b.lenBuff = 0 ∧ b.posBuff = 0)

theorem readByte_win {b} (d : Nat) (h : OneWin b) : Post (readByte b d) (fun r => OneWin r.2.2) := by
  have htake : ∀ b, OneWin b → b.lenBuff ≠ 0 → Post (takeByte b) (fun r => OneWin r.2.2) := by
    intro b h hl
    unfold takeByte
    split
    · exact Post.ok ⟨h.clean, h.len, h.win.imp id (fun q => ⟨q.1, q.2.imp id (fun q => absurd q.1 hl)⟩)⟩
    · intro a ha; cases ha
  unfold readByte
  split
  · exact Post.ok h
  split
  · rename_i hr
    unfold refill
    rw [if_neg (by simp [h.clean])]
    simp only
    have hlen : (fill b (b.pos + b.lenBuff)).lenBuff = min W (W - (b.pos + b.lenBuff)) := by rw [fill_len, h.len]
    split
    · exact Post.ok ⟨h.clean, h.len, Or.inl rfl⟩
    · rename_i hz
      refine htake _ ⟨h.clean, h.len, ?_⟩ hz
      rcases h.win with q | ⟨q1, q2⟩
      · exact Or.inl q
      · have hz : (fill b (b.pos + b.lenBuff)).lenBuff ≠ 0 := hz
        have hl0 : b.lenBuff = 0 := by
          rcases q2 with q2 | q2
          · rw [q2] at hlen; rw [q2, hlen] at hz; omega
          · exact q2.1
        right
        exact ⟨by show b.pos + b.lenBuff = 0; omega, Or.inl (by
          show (fill b (b.pos + b.lenBuff)).lenBuff = W
          rw [hlen, q1, hl0]; omega)⟩
  · exact htake b h (by omega)

theorem rdLoop_win : ∀ (n : Nat) (b : Buf), OneWin b → Post (rdLoop n b) (fun r => OneWin r.2.2) := by
  intro n
  induction n with
  | zero => intro b h; exact Post.ok h
  | succ n ih =>
    intro b h
    unfold rdLoop
    refine (readByte_win 0 h).bind ?_
    rintro ⟨s, x, b1⟩ h1
    simp only
    split
    · refine (ih b1 h1).bind ?_
      rintro ⟨s, l, b2⟩ h2
      exact Post.ok h2
    · exact Post.ok h1

/-- The drive while a TAP record is read forward. -/
def RdTap (t : Tape) : Prop := OneWin t.b ∧ t.fmt = .tap ∧ t.func = .read

theorem readFrame_win {t} (d : Nat) (h : RdTap t) : Post (readFrame t d) (fun r => RdTap r.2.2) := by
  unfold readFrame
  split
  · exact Post.ok h
  split
  · exact Post.ok h
  rw [if_pos (Or.inl h.2.1), if_pos h.2.2]
  split
  · exact Post.ok h
  · refine (readByte_win d h.1).bind ?_
    rintro ⟨s, x, b⟩ h1
    exact Post.ok ⟨h1, h.2⟩

theorem frames_win (junk : Nat) : ∀ (k : Nat) (t : Tape), RdTap t → Post (frames junk k t) (fun r => RdTap r.2) := by
  intro k
  induction k with
  | zero => intro t h; exact Post.ok h
  | succ k ih =>
    intro t h
    unfold frames
    refine (readFrame_win junk h).bind ?_
    rintro ⟨s, x, t1⟩ h1
    refine (ih t1 h1).bind ?_
    rintro ⟨l, t2⟩ h2
    exact Post.ok h2

theorem skipLoop_win : ∀ (k : Nat) (t : Tape) (d : Nat), RdTap t → Post (skipLoop k t d) RdTap := by
  intro k
  induction k with
  | zero => intro t d h; exact Post.ok h
  | succ k ih =>
    intro t d h
    unfold skipLoop
    refine (readFrame_win d h).bind ?_
    rintro ⟨s, x, t1⟩ h1
    exact ih t1 x h1

theorem finishRec_win {t} (fuel junk : Nat) (h : RdTap t) : Post (finishRec fuel junk t) (fun r => OneWin r.2.b) := by
  unfold finishRec
  split
  · exact Post.ok h.1
  rw [if_pos (Or.inl h.2.1)]
  split
  · exact Post.ok h.1
  rw [h.2.2]
  refine (skipLoop_win _ t junk h).bind ?_
  intro t1 h1
  have hpad : Post (if t1.fmt = .tap ∧ t1.orecl % 2 = 1 then readByte t1.b 0 else .ok (.ok, 0, t1.b)) (fun r => OneWin r.2.2) := by
    split
    · exact readByte_win 0 h1.1
    · exact Post.ok h1.1
  refine hpad.bind ?_
  rintro ⟨s, x, b2⟩ h2
  refine (rdLoop_win 4 b2 h2).bind ?_
  rintro ⟨s, l, b3⟩ h3
  simp only
  split
  · exact Post.ok h3
  · exact Post.ok h3

theorem readForw_win {t} (h : OneWin t.b) (hf : t.fmt = .tap) : Post (readForw t) (fun r => r.1 = .ok → RdTap r.2) := by
  unfold readForw
  split
  · exact Post.ok (by intro q; cases q)
  simp only
  split
  · exact Post.ok (by intro q; cases q)
  rw [if_pos (Or.inl hf)]
  refine (rdLoop_win 4 { t.b with bot := false } ⟨h.clean, h.len, h.win⟩).bind ?_
  rintro ⟨s, l, b⟩ hb
  simp only
  split
  · rename_i hs; exact Post.ok (fun q => absurd q hs)
  split
  · intro a ha
    obtain ⟨⟨s1, l1, b1⟩, _, ha⟩ := bind_eq_ok ha
    obtain rfl := Res.ok.inj ha
    intro q
    simp only at q
    split at q
    · cases q
    · rename_i hs; exact absurd q hs
  split
  · exact Post.ok (by intro q; cases q)
  · exact Post.ok (fun _ => ⟨hb, hf, rfl⟩)

theorem writeByte_cleanEnd (b : Buf) (x : Nat) (ho : b.opened = true) (hp : b.posBuff = W) (hd : b.dirty = false) :
    writeByte { b with bot := false } x = writeByte { b with lenBuff := 0, posBuff := 0, bot := false } x := by
  have hW : ¬ W = 0 := by have := W_pos; omega
  unfold writeByte
  simp [ho, hp, hd, hW]

/-- C31 fails when a write follows a read directly and the file read so far is exactly one window long: appending a tape
mark to a tape that holds one record of 32760 bytes overwrites the beginning of the record instead. -/
theorem C31_violated_append (t : Tape) (hb : t.b.buffer.length = W) (den : Bool) (fuel junk k : Nat) (fin : Bool)
    (bs : List Nat) (hl : bs.length = 32760) (hbs : ∀ x ∈ bs, x < 256) :
    ∃ t', opRun fuel junk [.fwd k fin, .write .mark] (attach t (image .tap (.data bs)) .tap true den) =
        .ok ([readItem k fin false (.data bs), wroteAll .mark], t') ∧
      (detach t').b.file = [0, 0, 0, 0] ++ (image .tap (.data bs)).drop 4 := by
  have hne : bs ≠ [] := by intro q; rw [q] at hl; cases hl
  have hfit : Fits .tap (.data bs) := by simpa [Fits, hne, hl] using hbs
  have hcl : (image .tap (.data bs)).length = W := by rw [W_eq]; simp [image, le32, hl]
  generalize hc : image .tap (.data bs) = c at hcl ⊢
  have h0 := attach_rel t .tap true den [.data bs] [] hb (by simpa using hfit)
  rw [images_cons, images_nil, List.append_nil, List.append_nil, hc] at h0
  have hd0 : Drive (attach t c .tap true den) .tap true c 0 := by
    have := h0.drive
    simp only [images_cons, images_nil, List.append_nil, List.reverse_nil, List.nil_append, hc, List.length_nil] at this
    exact this
  obtain ⟨t1, e1, d1, a1, a2⟩ := fwd_data_te (pre := []) (post := []) fuel junk k fin bs hd0 (Or.inl rfl)
    (by simp [hc]) hne (by omega) rfl
  rw [hc] at d1
  have hw : OneWin t1.b := by
    have hp : Post (opStep fuel junk (.fwd k fin) (attach t c .tap true den)) (fun r => r.2.b.eot = false → r.1 = readItem k fin false (.data bs) → OneWin r.2.b) := by
      show Post (readOp readForw fuel junk k fin _) _
      unfold readOp
      refine (readForw_win (t := attach t c .tap true den) ⟨rfl, hcl, Or.inr ⟨rfl, Or.inr ⟨rfl, rfl⟩⟩⟩ rfl).bind ?_
      rintro ⟨s, t2⟩ h2
      simp only
      split
      · rename_i hs
        refine (frames_win junk k t2 (h2 hs)).bind ?_
        rintro ⟨l, t3⟩ h3
        refine (finishRec_win fuel junk h3).bind ?_
        rintro ⟨q, t4⟩ h4
        exact Post.ok (fun _ _ => h4)
      · rename_i hs
        have no : ∀ l o, Obs.read s l o = readItem k fin false (.data bs) → False := by
          intro l o q
          simp only [readItem, Obs.read.injEq] at q
          exact hs q.1
        split
        · intro a ha
          obtain ⟨⟨l, t3⟩, _, ha⟩ := bind_eq_ok ha
          simp only at ha
          split at ha
          · obtain ⟨⟨q, t4⟩, _, ha⟩ := bind_eq_ok ha
            obtain rfl := Res.ok.inj ha
            exact fun _ q => (no _ _ q).elim
          · obtain rfl := Res.ok.inj ha
            exact fun _ q => (no _ _ q).elim
        · exact Post.ok (fun _ q => (no _ _ q).elim)
    exact hp _ e1 a1 rfl
  have hpat := d1.rep.pat
  simp only [List.length_nil, Nat.zero_add, hcl] at hpat
  have hp0 : t1.b.pos = 0 := by
    rcases hw.win with q | q
    · rw [a1] at q; cases q
    · exact q.1
  have hpb : t1.b.posBuff = W := by omega
  have hfile : t1.b.file = c := (d1.rep.clean hw.clean).symm
  have r0 : Rep { t1.b with lenBuff := 0, posBuff := 0, bot := false } c 0 :=
    ⟨d1.rep.opened, d1.rep.wrt, d1.rep.blen, Nat.le_refl _, Nat.zero_le _, d1.rep.le3, by simp [hp0], by simp [hp0, hfile],
      fun _ => hfile.symm⟩
  obtain ⟨b2, e2, r2, _⟩ := wrLoop_ok [0, 0, 0, 0] _ c 0 r0 d1.wrt (by rintro ⟨q, _⟩; have := W_pos; simp at q; omega)
  have e3 : wrLoop [0, 0, 0, 0] { t1.b with bot := false } = .ok (.ok, b2) := by
    rw [← e2]
    have : writeByte { t1.b with bot := false } 0 = writeByte { t1.b with lenBuff := 0, posBuff := 0, bot := false } 0 := by
      exact writeByte_cleanEnd t1.b 0 d1.rep.opened hpb hw.clean
    show (writeByte { t1.b with bot := false } 0 >>= _) = (writeByte { t1.b with lenBuff := 0, posBuff := 0, bot := false } 0 >>= _)
    rw [this]
  have e4 : opStep fuel junk (.write .mark) t1 = .ok (wroteAll .mark, { t1 with b := b2, mark := false, srec := t1.b.pos + t1.b.posBuff, lrecl := 0, orecl := 0, posFrame := t1.posFrame + 1200, func := .mark }) := by
    simp only [opStep, writeMark]
    rw [if_neg (by simp [d1.rep.opened]), if_neg (by simp [d1.ring]), if_pos (Or.inl d1.fmt), e3]
    rfl
  refine ⟨_, by simp only [opRun, e1, bind_ok, e4]; rfl, ?_⟩
  rw [detach_file r2]
  simp [over]

example : ∃ bs : List Nat, bs.length = 32760 ∧ ∀ x ∈ bs, x < 256 :=
  ⟨List.replicate 32760 7, List.length_replicate, fun x h => by rw [(List.mem_replicate.mp h).2]; decide⟩

end Verif.Tape
