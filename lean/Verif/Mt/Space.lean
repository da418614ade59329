import Verif.Mt.Motion
/-!
# Spacing over blocks and files
-/
namespace Verif.Mt
open Verif.Bus
open Verif.Card (Res)
open Verif.Tape (Tape St Fmt Z Item IsTE Rel)

/-- The spacing commands. -/
def IsSpace (c : Nat) : Prop := c = 0x37 ∨ c = 0x3f ∨ c = 0x27 ∨ c = 0x2f

theorem IsSpace.facts {c : Nat} (h : IsSpace c) : c < 256 ∧ c ≠ 0 ∧ c &&& 3 = 3 := by
  rcases h with h | h | h | h <;> subst h <;> decide

theorem space_cb (fuel junk : Nat) {s : S} {u c : Nat} (hc : IsSpace c) (hs : s.cmd = c) : callback fuel junk s (.tape u) = spaceCb fuel junk s u := by
  show tapeCb fuel junk s u = _
  unfold tapeCb motionCb
  rcases hc with h | h | h | h <;> subst h <;> simp [hs]

section
variable {s0 s : S} {u c : Nat} {d : Drive} {t t1 t3 t4 : Tape} {σ : Nat} {bi : Nat}
variable (w : Spec.World) (hc : IsSpace c) (hl : u < s0.drives.length)
include hc hl

/-- A frame goes by. -/
theorem space_frame (h : Going s0 s u c d t .idle false σ true [.tape u] false) {x : Nat} (hr : ∀ j, Tape.readFrame t j = .ok (.ok, x, t1)) (r : Nat) :
    ∃ s1, Spec.attend w (r + 1) ⟨s, Bus.Spec.rest, bi⟩ = Spec.attend w r ⟨s1, Bus.Spec.rest, bi⟩ ∧ Going s0 s1 u c d t1 .idle false σ true [.tape u] false := by
  obtain ⟨s', g, -, e⟩ := motion_tick (bi := bi) w h rfl r
  refine ⟨_, e (addEv { setTape s' u { d with t := t } t1 with data := x % 256 } (.tape u)) ?_, ?_⟩
  · rw [space_cb _ _ hc g.cmd]
    unfold spaceCb
    rw [g.drive hl, bk, hr]
    rfl
  · refine ⟨g.st, g.selected, g.status, g.dataEnd, ?_, g.cmdDone, g.request, g.stacked, g.busyFlag, g.cmd, g.dataRdy, g.se0, g.rdy, g.curUnit, g.statUnit, g.scan, g.addr, g.rew, g.run, ?_⟩
    · show s'.evs ++ [.tape u] = _
      rw [g.evs]; rfl
    · show s'.drives.set u _ = _
      rw [g.drives, List.set_set]

/-- The block is over. -/
theorem space_block (hb : tst c 8 = false) (h : Going s0 s u c d t .idle false σ true [.tape u] false) (hr : ∀ j, Tape.readFrame t j = .ok (.eob, j, t))
    (hf : ∀ fuel, Tape.finishRec fuel w.junk t = .ok (.ok, t3)) (hbot : t3.b.bot = false) (r : Nat) :
    ∃ s1, Spec.attend w (r + 1) ⟨s, Bus.Spec.rest, bi⟩ = Spec.attend w r ⟨s1, Bus.Spec.rest, bi⟩ ∧ Going s0 s1 u c d t3 .idle false σ true [.done u] false := by
  obtain ⟨s', g, -, e⟩ := motion_tick (bi := bi) w h rfl r
  refine ⟨_, e (addEv (setTape { setTape s' u { d with t := t } t with data := s'.data % 256 } u { d with t := t } t3) (.done u)) ?_, ?_⟩
  · rw [space_cb _ _ hc g.cmd]
    unfold spaceCb
    rw [g.drive hl, bk, hr]
    show spaceEob _ _ _ _ _ = _
    unfold spaceEob
    rw [show ({ d with t := t } : Drive).t = t from rfl]
    show (up (Tape.finishRec w.fuel w.junk t)).bind _ = _
    rw [hf]
    simp only [up, bk]
    rw [if_neg (by show ¬ t3.b.bot = true; rw [hbot]; decide), if_neg (by show ¬ tst s'.cmd 8 = true; rw [g.cmd, hb]; decide), if_neg (by simp)]
  · refine ⟨g.st, g.selected, g.status, g.dataEnd, ?_, g.cmdDone, g.request, g.stacked, g.busyFlag, g.cmd, g.dataRdy, g.se0, g.rdy, g.curUnit, g.statUnit, g.scan, g.addr, g.rew, g.run, ?_⟩
    · show s'.evs ++ [.done u] = _
      rw [g.evs]; rfl
    · show (s'.drives.set u _).set u _ = _
      rw [g.drives, List.set_set, List.set_set]

/-- A block of a file is over and the next item is reached. -/
theorem space_next (hb : tst c 8 = true) {start : Tape → Tape.Res (St × Tape)} (hst : start = if tst c 0x10 then Tape.readForw else Tape.readBack)
    (h : Going s0 s u c d t .idle false σ true [.tape u] false) (hr : ∀ j, Tape.readFrame t j = .ok (.eob, j, t))
    (hf : ∀ fuel, Tape.finishRec fuel w.junk t = .ok (.ok, t3)) (hbot : t3.b.bot = false) {q : St} (hn : start t3 = .ok (q, t4)) (hq : q ≠ .fileError) (r : Nat) :
    ∃ s1, Spec.attend w (r + 1) ⟨s, Bus.Spec.rest, bi⟩ = Spec.attend w r ⟨s1, Bus.Spec.rest, bi⟩ ∧
      Going s0 s1 u c d t4 .idle false σ true [if q = .ok then .tape u else .done u] false := by
  obtain ⟨s', g, -, e⟩ := motion_tick (bi := bi) w h rfl r
  refine ⟨_, e (addEv (setTape { setTape s' u { d with t := t } t with data := s'.data % 256 } u { d with t := t } t4) (if q = .ok then .tape u else .done u)) ?_, ?_⟩
  · rw [space_cb _ _ hc g.cmd]
    unfold spaceCb
    rw [g.drive hl, bk, hr]
    show spaceEob _ _ _ _ _ = _
    unfold spaceEob
    rw [show ({ d with t := t } : Drive).t = t from rfl]
    show (up (Tape.finishRec w.fuel w.junk t)).bind _ = _
    rw [hf]
    simp only [up, bk]
    have e2 : (if tst s'.cmd 0x10 = true then Tape.readForw t3 else Tape.readBack t3) = .ok (q, t4) := by
      rw [← hn, hst, g.cmd]
      split <;> rfl
    rw [if_neg (by show ¬ t3.b.bot = true; rw [hbot]; decide), if_pos (by show tst s'.cmd 8 = true; rw [g.cmd, hb])]
    show (up (if tst s'.cmd 0x10 = true then Tape.readForw t3 else Tape.readBack t3)).bind _ = _
    rw [e2]
    simp only [up, bk]
    rw [if_neg hq]
    split <;> rfl
  · refine ⟨g.st, g.selected, g.status, g.dataEnd, ?_, g.cmdDone, g.request, g.stacked, g.busyFlag, g.cmd, g.dataRdy, g.se0, g.rdy, g.curUnit, g.statUnit, g.scan, g.addr, g.rew, g.run, ?_⟩
    · show s'.evs ++ [_] = _
      rw [g.evs]; rfl
    · show (s'.drives.set u _).set u _ = _
      rw [g.drives, List.set_set, List.set_set]

/-- A tape mark. -/
theorem space_mark (h : Going s0 s u c d t .idle false σ true [.tape u] false) (hr : ∀ j, Tape.readFrame t j = .ok (.mark, j, t))
    (hf : ∀ fuel, Tape.finishRec fuel w.junk t = .ok (.ok, t3)) (r : Nat) :
    ∃ s1, Spec.attend w (r + 1) ⟨s, Bus.Spec.rest, bi⟩ = Spec.attend w r ⟨s1, Bus.Spec.rest, bi⟩ ∧
      Going s0 s1 u c d t3 .idle false (if tst c 8 then σ else σ ||| 1) true [.done u] false := by
  obtain ⟨s', g, -, e⟩ := motion_tick (bi := bi) w h rfl r
  refine ⟨_, e (if tst c 8 then addEv (setTape { setTape s' u { d with t := t } t with data := s'.data % 256 } u { d with t := t } t3) (.done u)
    else addEv { setTape { setTape s' u { d with t := t } t with data := s'.data % 256 } u { d with t := t } t3 with mrk := upd s'.mrk s'.curUnit true, status := s'.status ||| sUnitExp } (.done u)) ?_, ?_⟩
  · rw [space_cb _ _ hc g.cmd]
    unfold spaceCb
    rw [g.drive hl, bk, hr]
    show (up (Tape.finishRec w.fuel w.junk t)).bind _ = _
    rw [hf]
    simp only [up, bk]
    show Res.ok (if tst s'.cmd 8 = true then _ else _) = _
    rw [g.cmd]
    rfl
  · have hd : (s'.drives.set u (some { d with t := t })).set u (some { d with t := t3 }) = s0.drives.set u (some { d with t := t3 }) := by
      rw [g.drives, List.set_set, List.set_set]
    have he : s'.evs ++ [.done u] = [.done u] := by rw [g.evs]; rfl
    cases tst c 8 with
    | true => exact ⟨g.st, g.selected, g.status, g.dataEnd, he, g.cmdDone, g.request, g.stacked, g.busyFlag, g.cmd, g.dataRdy, g.se0, g.rdy, g.curUnit, g.statUnit, g.scan, g.addr, g.rew, g.run, hd⟩
    | false =>
      exact ⟨g.st, g.selected, by show s'.status ||| sUnitExp = σ ||| 1; rw [g.status]; rfl, g.dataEnd, he, g.cmdDone, g.request, g.stacked, g.busyFlag, g.cmd, g.dataRdy, g.se0, g.rdy, g.curUnit, g.statUnit,
        g.scan, g.addr, g.rew, g.run, hd⟩

/-- The frames of a record go by. -/
theorem space_frames (r : Nat) {t2 : Tape} (bs : List Nat) : ∀ {s : S} {t : Tape}, Going s0 s u c d t .idle false σ true [.tape u] false → Gives bs t t2 →
    ∃ s1, Spec.attend w (r + bs.length) ⟨s, Bus.Spec.rest, bi⟩ = Spec.attend w r ⟨s1, Bus.Spec.rest, bi⟩ ∧ Going s0 s1 u c d t2 .idle false σ true [.tape u] false ∧
      ∀ j, Tape.readFrame t2 j = .ok (.eob, j, t2) := by
  induction bs with
  | nil => intro s t h ⟨e, hg⟩; subst e; exact ⟨s, rfl, h, hg⟩
  | cons x bs ih =>
    intro s t h ⟨t1, hr, hg⟩
    obtain ⟨s1, e1, g1⟩ := space_frame (bi := bi) w hc hl h hr (r + bs.length)
    obtain ⟨s2, e2, g2, q⟩ := ih g1 hg
    exact ⟨s2, by rw [← e2, ← e1]; rfl, g2, q⟩

end

/-- Only records up to the next tape mark. -/
def Records (l : List (List Nat)) : List Item := l.map .data

/-- The events it takes to pass them. -/
def cost : List (List Nat) → Nat
  | [] => 1
  | b :: l => cost l + b.length + 1

section
variable {s0 : S} {u c : Nat} {d : Drive} {σ : Nat} {f : Fmt} {rg : Bool}
variable (w : Spec.World) (hl : u < s0.drives.length) (hf : IsTE f)
include hl hf

/-- Spacing over a file forward. -/
theorem file_forward (hc : c = 0x3f) (r : List Item) (l : List (List Nat)) : ∀ {rest : List Nat} {t : Tape} {z : Z}, Rel f rg rest t z → z.after = Records l ++ .mark :: r →
    ∃ q t1, Tape.readForw t = .ok (q, t1) ∧ (q = .ok ∨ q = .mark ∧ ∃ rest', Rel f rg rest' t1 { z with before := .mark :: ((Records l).reverse ++ z.before), after := r, justRead := true }) ∧
      ∀ (k : Nat) (s : S) (bi : Nat), Going s0 s u c d t1 .idle false σ true [.tape u] false →
        ∃ s1 k' t4 rest', k ≤ k' ∧ Spec.attend w (k + cost l) ⟨s, Bus.Spec.rest, bi⟩ = Spec.attend w k' ⟨s1, Bus.Spec.rest, bi⟩ ∧ Going s0 s1 u c d t4 .idle false σ true [.done u] false ∧
          Rel f rg rest' t4 { z with before := .mark :: ((Records l).reverse ++ z.before), after := r, justRead := true } := by
  have hs : IsSpace c := .inr (.inl hc)
  have h8 : tst c 8 = true := by rw [hc]; decide
  have h10 : tst c 0x10 = true := by rw [hc]; decide
  induction l with
  | nil =>
    intro rest t z h hz
    obtain ⟨t1, t3, rest', rest'', e1, e2, e3, k1, k2⟩ := fwd_mark hf h hz w.junk
    refine ⟨.mark, t1, e1, .inr ⟨rfl, rest', k1⟩, fun k s bi g => ?_⟩
    obtain ⟨s1, e, g1⟩ := space_mark (bi := bi) w hs hl g e2 e3 k
    rw [h8, if_pos rfl] at g1
    exact ⟨s1, k, t3, rest'', Nat.le_refl _, e, g1, k2⟩
  | cons bs l ih =>
    intro rest t z h hz
    have hz' : z.after = .data bs :: (Records l ++ .mark :: r) := hz
    obtain ⟨t1, t2, t3, rest', e1, hg, e3, hb, k1⟩ := fwd_record hf h hz' w.junk
    obtain ⟨q, t1', e4, hq, hcont⟩ := ih k1 rfl
    have hze : ({ z with before := .mark :: ((Records l).reverse ++ (.data bs :: z.before)), after := r, justRead := true } : Z) =
        { z with before := .mark :: ((Records (bs :: l)).reverse ++ z.before), after := r, justRead := true } := by simp [Records]
    refine ⟨.ok, t1, e1, .inl rfl, fun k s bi g => ?_⟩
    obtain ⟨s1, a1, g1, he⟩ := space_frames (bi := bi) w hs hl (k + cost l + 1) bs g hg
    obtain ⟨s2, a2, g2⟩ := space_next (bi := bi) (start := Tape.readForw) w hs hl h8 (by rw [h10]; rfl) g1 he e3 hb e4 (by rcases hq with q | ⟨q, -⟩ <;> rw [q] <;> decide) (k + cost l)
    have a0 : Spec.attend w (k + cost (bs :: l)) ⟨s, Bus.Spec.rest, bi⟩ = Spec.attend w (k + cost l) ⟨s2, Bus.Spec.rest, bi⟩ := by
      rw [← a2, ← a1]; congr 1; simp [cost]; omega
    rcases hq with q | ⟨q, rest3, k3⟩
    · subst q
      obtain ⟨s3, k', t4, rest4, hk, a3, g3, k4⟩ := hcont k s2 bi g2
      exact ⟨s3, k', t4, rest4, hk, a0.trans a3, g3, by rw [← hze]; exact k4⟩
    · subst q
      rw [if_neg (by decide)] at g2
      exact ⟨s2, k + cost l, t1', rest3, by omega, a0, g2, by rw [← hze]; exact k3⟩

/-- What lies behind the tape after spacing backward over a file: the tape mark is passed, or the load point stops the tape. -/
theorem file_backward (hc : c = 0x2f) (r : List Item) (hr : r = [] ∨ ∃ r', r = .mark :: r') (l : List (List Nat)) :
    ∀ {rest : List Nat} {t : Tape} {z : Z}, Rel f rg rest t z → z.before = Records l ++ r →
    ∃ q t1, Tape.readBack t = .ok (q, t1) ∧ (q = .ok ∨ (q = .mark ∨ q = .bot) ∧ ∃ rest', Rel f rg rest' t1 { z with before := r.tail, after := r.take 1 ++ ((Records l).reverse ++ z.after), eot := false, justRead := false }) ∧
      (z.before ≠ [] → ∀ (k : Nat) (s : S) (bi : Nat), Going s0 s u c d t1 .idle false σ true [.tape u] false →
        ∃ s1 k' t4 rest', k ≤ k' ∧ Spec.attend w (k + cost l) ⟨s, Bus.Spec.rest, bi⟩ = Spec.attend w k' ⟨s1, Bus.Spec.rest, bi⟩ ∧ Going s0 s1 u c d t4 .idle false σ true [.done u] false ∧
          Rel f rg rest' t4 { z with before := r.tail, after := r.take 1 ++ ((Records l).reverse ++ z.after), eot := false, justRead := false }) := by
  have hs : IsSpace c := .inr (.inr (.inr hc))
  have h8 : tst c 8 = true := by rw [hc]; decide
  have h10 : tst c 0x10 = false := by rw [hc]; decide
  induction l with
  | nil =>
    intro rest t z h hz
    rcases hr with hr | ⟨r', hr⟩
    · subst hr
      have hz' : z.before = [] := hz
      obtain ⟨t1, rest', e1, k1⟩ := bwd_none hf h hz'
      refine ⟨.bot, t1, e1, .inr ⟨.inr rfl, rest', ?_⟩, fun q => absurd hz' q⟩
      have : ({ z with before := [], after := [] ++ ([] ++ z.after), eot := false, justRead := false } : Z) = { z with eot := false, justRead := false } := by
        simp [hz']
      rw [← this] at k1
      exact k1
    · subst hr
      have hz' : z.before = .mark :: r' := hz
      obtain ⟨t1, t3, rest', rest'', e1, e2, e3, k1, k2⟩ := bwd_mark hf h hz' w.junk
      refine ⟨.mark, t1, e1, .inr ⟨.inl rfl, rest', k1⟩, fun _ k s bi g => ?_⟩
      obtain ⟨s1, e, g1⟩ := space_mark (bi := bi) w hs hl g e2 e3 k
      rw [h8, if_pos rfl] at g1
      exact ⟨s1, k, t3, rest'', Nat.le_refl _, e, g1, k2⟩
  | cons bs l ih =>
    intro rest t z h hz
    have hz' : z.before = .data bs :: (Records l ++ r) := hz
    obtain ⟨t1, t2, t3, rest', e1, hg, e3, hb, k1⟩ := bwd_record hf h hz' w.junk
    obtain ⟨q, t1', e4, hq, hcont⟩ := ih k1 rfl
    have hze : ({ z with before := r.tail, after := r.take 1 ++ ((Records l).reverse ++ (.data bs :: z.after)), eot := false, justRead := false } : Z) =
        { z with before := r.tail, after := r.take 1 ++ ((Records (bs :: l)).reverse ++ z.after), eot := false, justRead := false } := by simp [Records]
    refine ⟨.ok, t1, e1, .inl rfl, fun _ k s bi g => ?_⟩
    obtain ⟨s1, a1, g1, he⟩ := space_frames (bi := bi) w hs hl (k + cost l + 1) bs.reverse g hg
    obtain ⟨s2, a2, g2⟩ := space_next (bi := bi) (start := Tape.readBack) w hs hl h8 (by rw [h10]; rfl) g1 he e3 hb e4 (by rcases hq with q | ⟨q | q, -⟩ <;> rw [q] <;> decide) (k + cost l)
    have a0 : Spec.attend w (k + cost (bs :: l)) ⟨s, Bus.Spec.rest, bi⟩ = Spec.attend w (k + cost l) ⟨s2, Bus.Spec.rest, bi⟩ := by
      rw [← a2, ← a1]; congr 1; simp [cost]; omega
    have fin : q ≠ .ok → (∃ rest', Rel f rg rest' t1' { z with before := r.tail, after := r.take 1 ++ ((Records l).reverse ++ (.data bs :: z.after)), eot := false, justRead := false }) →
        ∃ s1 k' t4 rest', k ≤ k' ∧ Spec.attend w (k + cost (bs :: l)) ⟨s, Bus.Spec.rest, bi⟩ = Spec.attend w k' ⟨s1, Bus.Spec.rest, bi⟩ ∧ Going s0 s1 u c d t4 .idle false σ true [.done u] false ∧
          Rel f rg rest' t4 { z with before := r.tail, after := r.take 1 ++ ((Records (bs :: l)).reverse ++ z.after), eot := false, justRead := false } := by
      rintro qn ⟨rest3, k3⟩
      rw [if_neg qn] at g2
      exact ⟨s2, k + cost l, t1', rest3, by omega, a0, g2, by rw [← hze]; exact k3⟩
    rcases hq with q | ⟨q, k3⟩
    · subst q
      by_cases hne : Records l ++ r = []
      · exfalso
        obtain ⟨t9, rest9, e9, -⟩ := bwd_none hf k1 hne
        rw [e4] at e9
        simp at e9
      · obtain ⟨s3, k', t4, rest4, hk, a3, g3, k4⟩ := hcont hne k s2 bi g2
        exact ⟨s3, k', t4, rest4, hk, a0.trans a3, g3, by rw [← hze]; exact k4⟩
    · exact fin (by rcases q with q | q <;> rw [q] <;> decide) k3

end

end Verif.Mt
