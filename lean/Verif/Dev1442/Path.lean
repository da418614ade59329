import Verif.Dev1442.Bus
import Verif.Card.Queue
/-!
# The card path of the 1442 (C42)
-/
namespace Verif.Dev1442
open Verif.Bus
open Verif.Card (Res Img)

/-! ## Specification -/

/-- Where the cards are. -/
structure Spec.Path where
  hopper : List Img
  reader : Option Img
  punch : Option Img
  stk1 : List Img
  stk2 : List Img

/-- The cards of a device. -/
def path (k : K) : Spec.Path :=
  { hopper := k.hop.hopper, reader := if k.rdrFull then some k.rdrCard else none, punch := if k.pchFull then some k.pchCard else none
    stk1 := k.stk0.content, stk2 := k.stk1.content }

/-- The cards on their way, nearest to the stacker first. -/
def Spec.Path.line (p : Spec.Path) : List Img := p.punch.toList ++ p.reader.toList ++ p.hopper

/-- One feed: every card moves one place on, the card at the punch goes to the selected stacker; when `stop` no new card
leaves the hopper. -/
def Spec.feed (p : Spec.Path) (two stop : Bool) : Spec.Path :=
  { hopper := if stop then p.hopper else p.hopper.tail, reader := if stop then none else p.hopper.head?, punch := p.reader
    stk1 := if two then p.stk1 else p.stk1 ++ p.punch.toList, stk2 := if two then p.stk2 ++ p.punch.toList else p.stk2 }

/-- `b` is `a` with, possibly, more holes. -/
def Spec.covers (a b : Img) : Prop := a.length = b.length ∧ ∀ (i x y : Nat), a[i]? = some x → b[i]? = some y → x ||| y = y

/-- The holes of byte `v` are added to column `c`. -/
def Spec.punchedAt (a b : Img) (c v : Nat) : Prop :=
  c < 80 ∧ ∃ h x, Card.ebcdicToHol (v % 256) = some h ∧ a[c]? = some x ∧ b = a.set c (x ||| h)

/-! ## Decks -/

theorem punchLoop_frame : ∀ (n : Nat) (c c' : Card.Ctx), Card.punchLoop n c = .ok c' → c'.images = c.images ∧ c'.cards = c.cards := by
  intro n
  induction n with
  | zero => intro c c' h; cases h
  | succ n ih =>
    intro c c' h
    unfold Card.punchLoop at h
    split at h
    · cases hg : Card.getImg c c.pos with
      | ok m =>
        simp only [hg, Card.Res.bind_ok] at h
        cases hp : Card.punchCard c.mode m with
        | ok b =>
          simp only [hp, Card.Res.bind_ok] at h
          have := ih _ _ h
          exact this
        | oob => simp [hp] at h
        | fuel => simp [hp] at h
      | oob => simp [hg] at h
      | fuel => simp [hg] at h
    · cases h; exact ⟨rfl, rfl⟩

theorem stackCard_spec {c : Card.Ctx} (h : Card.Wf c) (hc : ∀ m ∈ c.hopper, Card.Card m) (m : Img) (hm : Card.Card m) :
    ∃ c', Card.stackCard c m = .ok c' ∧ Card.Wf c' ∧ c'.content = c.content ++ [m] ∧ ∀ m ∈ c'.hopper, Card.Card m := by
  obtain ⟨c1, e1, e2, e3, e4, e5, e6, e7⟩ := Card.push_spec h m
  have hh : c1.hopper = c.hopper ++ [m] := by
    simp only [Card.Ctx.hopper, e3, e4]
    rw [List.drop_append_of_le_length (by rw [h.content_length]; exact h.pos)]
  have hall : ∀ x ∈ c.hopper ++ [m], Card.Card x := by
    intro x hx
    rcases List.mem_append.mp hx with hx | hx
    · exact hc x hx
    · simp only [List.mem_singleton] at hx; rw [hx]; exact hm
  have hst : (c1.out = none → Card.stackCard c m = .ok c1) ∧ ∀ f, c1.out = some f → Card.stackCard c m = Card.punchLoop (c1.cards + 1) c1 := by
    unfold Card.push at e1
    unfold Card.stackCard
    cases hs : Card.setImg (Card.grow c) (Card.grow c).cards m with
    | ok c2 =>
      simp only [hs, Card.Res.bind_ok, Card.Res.ok.injEq] at e1
      subst e1
      constructor
      · intro ho
        have h1 : c2.out = none := ho
        simp only [hs, Card.Res.bind_ok, h1]
      · intro f ho
        have h1 : c2.out = some f := ho
        simp only [hs, Card.Res.bind_ok, h1]
    | oob => simp [hs] at e1
    | fuel => simp [hs] at e1
  cases ho : c1.out with
  | none =>
    exact ⟨c1, hst.1 ho, e2, e3, by rw [hh]; exact hall⟩
  | some f =>
    obtain ⟨b, hb⟩ := Card.punchAll_ok c1.mode (c.hopper ++ [m]) hall
    obtain ⟨c2, k1, k2, k3, k4, k5, k6⟩ := Card.punchLoop_spec _ c1 (c1.cards + 1) b e2 hh (by rw [← hh, Card.hopper_length e2]; omega) hb
    obtain ⟨f1, f2⟩ := punchLoop_frame _ _ _ k1
    refine ⟨c2, by rw [hst.2 f ho]; exact k1, k2, ?_, by rw [k3]; simp⟩
    rw [← e3]
    simp only [Card.Ctx.content, f1, f2]

/-! ## Invariant -/

/-- What holds of every 1442 that was set up with decks of proper cards. -/
structure KInv (k : K) : Prop where
  hop : Card.Wf k.hop
  hopC : ∀ m ∈ k.hop.hopper, Card.Card m
  stk0 : Card.Wf k.stk0
  stk0C : ∀ m ∈ k.stk0.hopper, Card.Card m
  stk1 : Card.Wf k.stk1
  stk1C : ∀ m ∈ k.stk1.hopper, Card.Card m
  rdr : Card.Card k.rdrCard
  pch : Card.Card k.pchCard

structure Inv (s : S) : Prop where
  status : s.status < 256
  sense : s.sense < 256
  k : KInv s.k

theorem or8 {a b : Nat} (ha : a < 256) (hb : b < 256) : a ||| b < 256 := Nat.or_lt_two_pow (n := 8) ha hb

theorem and8 {a b : Nat} (ha : a < 256) : a &&& b < 256 := Nat.lt_of_le_of_lt Nat.and_le_left ha

/-! ## Feeding -/

theorem stackPunch_spec {k : K} (h : KInv k) : ∃ k', stackPunch k = .ok k' ∧ KInv k' ∧ k'.hop = k.hop ∧ k'.rdrCard = k.rdrCard ∧ k'.rdrFull = k.rdrFull ∧
    k'.pchFull = false ∧ k'.stop = k.stop ∧ k'.eof = k.eof ∧
    k'.stk0.content = (if k.stkSel then k.stk0.content else k.stk0.content ++ (path k).punch.toList) ∧
    k'.stk1.content = (if k.stkSel then k.stk1.content ++ (path k).punch.toList else k.stk1.content) := by
  unfold stackPunch
  cases hf : k.pchFull
  · exact ⟨k, by simp, h, rfl, rfl, rfl, hf, rfl, rfl, by simp [path, hf], by simp [path, hf]⟩
  · cases hs : k.stkSel
    · obtain ⟨c, e1, e2, e3, e4⟩ := stackCard_spec h.stk0 h.stk0C k.pchCard h.pch
      refine ⟨{ k with stk0 := c, pchFull := false, pchCol := 0 }, by simp [e1, Res.bind, hs], ⟨h.hop, h.hopC, e2, e4, h.stk1, h.stk1C, h.rdr, h.pch⟩, rfl, rfl, rfl, rfl, rfl, rfl, ?_, ?_⟩
      · simp [path, hf, e3]
      · simp
    · obtain ⟨c, e1, e2, e3, e4⟩ := stackCard_spec h.stk1 h.stk1C k.pchCard h.pch
      refine ⟨{ k with stk1 := c, pchFull := false, pchCol := 0 }, by simp [e1, Res.bind, hs], ⟨h.hop, h.hopC, h.stk0, h.stk0C, e2, e4, h.rdr, h.pch⟩, rfl, rfl, rfl, rfl, rfl, rfl, ?_, ?_⟩
      · simp
      · simp [path, hf, e3]

theorem toReader_spec {k : K} (h : KInv k) (hr : k.rdrFull = false) : ∃ k', toReader k = .ok k' ∧ KInv k' ∧
    (path k').hopper = (if k.stop then k.hop.hopper else k.hop.hopper.tail) ∧ (path k').reader = (if k.stop then none else k.hop.hopper.head?) ∧
    (path k').punch = (path k).punch ∧ k'.stk0 = k.stk0 ∧ k'.stk1 = k.stk1 ∧ k'.pchCol = k.pchCol := by
  unfold toReader
  cases hs : k.stop
  · simp only [Bool.false_eq_true, if_false]
    cases hq : k.hop.hopper with
    | nil =>
      rw [Card.readCard_nil h.hop hq]
      simp only [Res.bind, Option.isSome, Option.getD]
      refine ⟨_, rfl, ?_, ?_, ?_, ?_, ?_, ?_, ?_⟩
      · split <;> exact ⟨h.hop, h.hopC, h.stk0, h.stk0C, h.stk1, h.stk1C, h.rdr, h.pch⟩
      · split <;> simp [path, hq]
      · split <;> simp [path]
      all_goals split <;> rfl
    | cons m q =>
      have hm : Card.Card m := h.hopC m (by rw [hq]; simp)
      obtain ⟨c', e1, e2, e3, -, -⟩ := Card.readCard_cons h.hop hq hm.2
      rw [e1]
      simp only [Res.bind, Option.isSome, Option.getD]
      refine ⟨_, rfl, ?_, ?_, ?_, ?_, ?_, ?_, ?_⟩
      · have hh : ∀ x ∈ c'.hopper, Card.Card x := by
          rw [e3]; intro x hx; exact h.hopC x (by rw [hq]; simp [hx])
        split <;> exact ⟨e2, hh, h.stk0, h.stk0C, h.stk1, h.stk1C, hm, h.pch⟩
      · split <;> simp [path, e3]
      · split <;> simp [path]
      all_goals split <;> rfl
  · refine ⟨{ k with rdy := false }, by simp [hs], ⟨h.hop, h.hopC, h.stk0, h.stk0C, h.stk1, h.stk1C, h.rdr, h.pch⟩, rfl, ?_, rfl, rfl, rfl, rfl⟩
    simp [path, hr]

/-- The feed of the model is the feed of the specification; it does nothing when the hopper is empty and end of file
was not pressed. -/
theorem feed_spec {s : S} (h : Inv s) : ∃ s', feed s = .ok s' ∧ Inv s' ∧ s'.status = s.status ∧
    path s'.k = (if s.k.hop.hopper = [] ∧ s.k.eof = false then path s.k else Spec.feed (path s.k) s.k.stkSel s.k.stop) := by
  unfold feed
  have hsz : Card.hopperSize s.k.hop = 0 ↔ s.k.hop.hopper = [] := by
    unfold Card.hopperSize
    rw [← Card.hopper_length h.k.hop, List.length_eq_zero_iff]
  by_cases hc : s.k.hop.hopper = [] ∧ s.k.eof = false
  · rw [if_pos ⟨hsz.mpr hc.1, hc.2⟩, if_pos hc]
    exact ⟨_, rfl, ⟨h.status, or8 h.sense (by decide), ⟨h.k.hop, h.k.hopC, h.k.stk0, h.k.stk0C, h.k.stk1, h.k.stk1C, h.k.rdr, h.k.pch⟩⟩, rfl, rfl⟩
  · rw [if_neg (fun hx => hc ⟨hsz.mp hx.1, hx.2⟩), if_neg hc]
    obtain ⟨k1, a1, a2, a3, a4, a5, a6, a7, a8, a9, a10⟩ := stackPunch_spec h.k
    have b2 : KInv (toPunch k1) := by
      unfold toPunch
      split
      · exact ⟨a2.hop, a2.hopC, a2.stk0, a2.stk0C, a2.stk1, a2.stk1C, a2.rdr, a2.rdr⟩
      · exact a2
    have b3 : (toPunch k1).rdrFull = false := by
      unfold toPunch; split
      · rfl
      · rename_i hx; simpa using hx
    have b4 : (path (toPunch k1)).punch = (path s.k).reader := by
      unfold toPunch path
      cases hr : k1.rdrFull <;> simp [← a5, hr, a6, a4]
    have b5 : (toPunch k1).hop = s.k.hop ∧ (toPunch k1).stop = s.k.stop ∧ (toPunch k1).stk0 = k1.stk0 ∧ (toPunch k1).stk1 = k1.stk1 := by
      unfold toPunch; split <;> exact ⟨a3, a7, rfl, rfl⟩
    obtain ⟨k2, c1, c2, c3, c4, c5, c6, c7, c8⟩ := toReader_spec b2 b3
    rw [a1]
    simp only [Res.bind]
    rw [c1]
    refine ⟨_, rfl, ⟨h.status, ?_, ⟨c2.hop, c2.hopC, c2.stk0, c2.stk0C, c2.stk1, c2.stk1C, c2.rdr, c2.pch⟩⟩, rfl, ?_⟩
    · show (if k2.rdy then _ else _) < 256
      split
      · exact and8 h.sense
      · exact or8 h.sense (by decide)
    · rw [b5.1, b5.2.1] at c3 c4
      have e : path { k2 with stop := false, rdrCol := 0 } = path k2 := rfl
      show path { k2 with stop := false, rdrCol := 0 } = _
      rw [e]
      have : path k2 = { hopper := (path k2).hopper, reader := (path k2).reader, punch := (path k2).punch, stk1 := k2.stk0.content, stk2 := k2.stk1.content } := rfl
      rw [this, c3, c4, c5, b4, c6, c7, b5.2.2.1, b5.2.2.2, a9, a10]
      rfl

end Verif.Dev1442
