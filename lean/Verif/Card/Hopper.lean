import Verif.Card.Model
/- Lemmas about the hopper storage: growth, moving down, appending, reading. -/
namespace Verif.Card

/-- The cards stored, including those already read. -/
def Ctx.content (c : Ctx) : List Img := c.images.take c.cards

/-- The cards still in the hopper. -/
def Ctx.hopper (c : Ctx) : List Img := c.content.drop c.pos

structure Wf (c : Ctx) : Prop where
  cards : c.cards ≤ c.images.length
  pos   : c.pos ≤ c.cards

theorem Wf.content_length {c : Ctx} (h : Wf c) : c.content.length = c.cards := by
  simp [Ctx.content, h.cards]

theorem initCtx_wf : Wf initCtx := ⟨by simp [initCtx], by simp [initCtx]⟩

theorem grow_spec {c : Ctx} (h : Wf c) : Wf (grow c) ∧ (grow c).cards < (grow c).images.length ∧
    (grow c).content = c.content ∧ (grow c).pos = c.pos ∧ (grow c).cards = c.cards ∧ (grow c).mode = c.mode ∧
    (grow c).out = c.out := by
  unfold grow
  split
  · rename_i hc
    have he : c.cards = c.images.length := Nat.le_antisymm h.cards hc
    refine ⟨⟨by simp; omega, h.pos⟩, ?_, ?_, rfl, rfl, rfl, rfl⟩
    · show c.cards < (c.images ++ List.replicate deckSize blank).length
      rw [List.length_append, List.length_replicate]
      have : 0 < deckSize := by decide
      omega
    simp only [Ctx.content]
    rw [List.take_append_of_le_length h.cards]
  · exact ⟨h, by omega, rfl, rfl, rfl, rfl, rfl⟩

/-- grow, store at `hopper_cards`, count: the append step shared by all loaders. -/
def push (c : Ctx) (img : Img) : Res Ctx := do
  let c := grow c
  let c ← setImg c c.cards img
  .ok { c with cards := c.cards + 1 }

theorem push_spec {c : Ctx} (h : Wf c) (img : Img) : ∃ c', push c img = .ok c' ∧ Wf c' ∧
    c'.content = c.content ++ [img] ∧ c'.pos = c.pos ∧ c'.cards = c.cards + 1 ∧ c'.mode = c.mode ∧ c'.out = c.out := by
  obtain ⟨g1, g2, g3, g4, g5, g6, g7⟩ := grow_spec h
  refine ⟨{ grow c with images := (grow c).images.set (grow c).cards img, cards := (grow c).cards + 1 }, ?_, ?_, ?_, g4, ?_, g6, g7⟩
  · simp [push, setImg, g2]
  · exact ⟨by simp; omega, by have := g1.pos; simp; omega⟩
  · rw [← g3]
    simp only [Ctx.content]
    rw [List.take_set, List.take_add_one, List.getElem?_eq_getElem g2]
    rw [List.set_append_right _ _ (by simp; omega)]
    simp [Nat.min_eq_left (Nat.le_of_lt g2)]
  · simp [g5]

theorem moveLoop_spec : ∀ (n : Nat) (c : Ctx) (i : Nat), Wf c → i ≤ c.pos → c.cards - c.pos < n →
    ∃ c', moveLoop n c i = .ok c' ∧ Wf c' ∧ c'.pos = 0 ∧ c'.content = c.images.take i ++ c.hopper ∧
      c'.mode = c.mode ∧ c'.out = c.out := by
  intro n
  induction n with
  | zero => intro c i _ _ h; omega
  | succ n ih =>
    intro c i h hi hn
    have h1 := h.cards
    have h2 := h.pos
    by_cases hp : c.pos < c.cards
    · have hl : c.pos < c.images.length := by omega
      have hil : i < c.images.length := by omega
      obtain ⟨c', e1, e2, e3, e4, e5, e6⟩ := ih { c with images := c.images.set i c.images[c.pos], pos := c.pos + 1 } (i + 1)
        ⟨by simpa using h1, by simp; omega⟩ (by simp; omega) (by simp; omega)
      refine ⟨c', ?_, e2, e3, ?_, e5, e6⟩
      · simp [moveLoop, hp, getImg, hl, setImg, hil, e1]
      · rw [e4]
        simp only [Ctx.hopper, Ctx.content]
        rw [List.take_add_one]
        simp only [List.getElem?_set, hil, if_true]
        rw [List.take_set, List.take_set, List.drop_set_of_lt (by omega)]
        have : (List.take c.cards c.images).drop c.pos = c.images[c.pos] :: (List.take c.cards c.images).drop (c.pos + 1) := by
          rw [List.drop_eq_getElem_cons (by simp; omega)]
          simp
        rw [this]
        rw [List.set_eq_of_length_le (by simp; omega)]
        simp
    · refine ⟨{ c with cards := i, pos := 0 }, by simp [moveLoop, hp], ⟨by simp; omega, by simp⟩, rfl, ?_, rfl, rfl⟩
      have : c.pos = c.cards := by omega
      simp [Ctx.hopper, Ctx.content, this]

theorem moveDown_spec {c : Ctx} (h : Wf c) : ∃ c', moveDown c = .ok c' ∧ Wf c' ∧ c'.pos = 0 ∧ c'.content = c.hopper ∧
    c'.mode = c.mode ∧ c'.out = c.out := by
  unfold moveDown
  split
  · obtain ⟨c', e1, e2, e3, e4, e5, e6⟩ := moveLoop_spec (c.cards + 1) c 0 h (by omega) (by omega)
    exact ⟨c', e1, e2, e3, by simpa using e4, e5, e6⟩
  · refine ⟨c, rfl, h, by omega, ?_, rfl, rfl⟩
    have : c.pos = 0 := by omega
    simp [Ctx.hopper, this]

theorem blankLoop_spec : ∀ (n : Nat) (c : Ctx), Wf c → ∃ c', blankLoop n c = .ok c' ∧ Wf c' ∧ c'.pos = c.pos ∧
    c'.content = c.content ++ List.replicate n blank ∧ c'.mode = c.mode ∧ c'.out = c.out := by
  intro n
  induction n with
  | zero => intro c h; exact ⟨c, rfl, h, rfl, by simp, rfl, rfl⟩
  | succ n ih =>
    intro c h
    obtain ⟨c1, e1, e2, e3, e4, e5, e6, e7⟩ := push_spec h blank
    obtain ⟨c2, f1, f2, f3, f4, f5, f6⟩ := ih c1 e2
    refine ⟨c2, ?_, f2, by rw [f3, e4], ?_, by rw [f5, e6], by rw [f6, e7]⟩
    · have : blankLoop (n + 1) c = (push c blank >>= fun c => blankLoop n c) := by
        simp only [blankLoop, push]
        cases setImg (grow c) (grow c).cards blank <;> rfl
      rw [this, e1]; exact f1
    · rw [f4, e3, List.append_assoc]; rfl

/-- All columns are 12 bits. -/
def Img.Ok (m : Img) : Prop := m.length = 80 ∧ ∀ x ∈ m, x < 4096

theorem hopper_cons {c : Ctx} (h : Wf c) (hp : c.pos < c.cards) : ∃ m, c.images[c.pos]? = some m ∧
    c.hopper = m :: Ctx.hopper { c with pos := c.pos + 1 } := by
  have hl : c.pos < c.images.length := Nat.lt_of_lt_of_le hp h.cards
  refine ⟨c.images[c.pos], by simp [hl], ?_⟩
  simp only [Ctx.hopper, Ctx.content]
  rw [List.drop_eq_getElem_cons (by simp; omega)]
  simp

end Verif.Card
