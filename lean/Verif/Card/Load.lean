import Verif.Card.Total
import Verif.Card.Spec
/- Loading an arbitrary file: what one step does, termination, bounds, independence of the hopper. -/
namespace Verif.Card

theorem refill_ctx (s : Rd) (c : Ctx) : refill { s with ctx := c } = { refill s with ctx := c } := by
  unfold refill; simp only; split <;> rfl

theorem refill_keeps_ctx (s : Rd) : (refill s).ctx = s.ctx := by unfold refill; split <;> rfl
theorem refill_keeps_size (s : Rd) : (refill s).size = s.size := by unfold refill; split <;> rfl

/-- The buffer after a card of `size` bytes has been taken. -/
def shift (s : Rd) (size : Nat) : Rd :=
  { s with
    mem := fun i => if i < s.len - size then s.mem (i + size) else s.mem i
    size := size
    len := s.len - size }

/-- One step when the card parses. -/
theorem readStep_ok {s : Rd} (hw : Wf s.ctx) {img : Img} {o : Option Nat}
    (hp : parseCard s.ctx.mode (refill s).mem (refill s).len = .ok (img, o)) :
    ∃ c', push s.ctx img = .ok c' ∧ Wf c' ∧ c'.content = s.ctx.content ++ [img] ∧ c'.pos = s.ctx.pos ∧
      c'.mode = s.ctx.mode ∧ c'.out = s.ctx.out ∧
      readStep s = .ok { shift (refill s) (o.getD s.size) with ctx := c' } := by
  obtain ⟨c', e1, e2, e3, e4, e5, e6, e7⟩ := push_spec hw img
  refine ⟨c', e1, e2, e3, e4, e6, e7, ?_⟩
  have hm : (grow s.ctx).mode = s.ctx.mode := (grow_spec hw).2.2.2.2.2.1
  unfold readStep
  simp only [refill_keeps_ctx, hm, hp, Res.bind_ok, refill_keeps_size]
  unfold push at e1
  cases hs : setImg (grow s.ctx) (grow s.ctx).cards img with
  | ok c1 =>
    simp only [hs, Res.bind_ok, Res.ok.injEq] at e1
    simp only [Res.bind_ok, shift, e1]
  | oob => simp [hs] at e1
  | fuel => simp [hs] at e1

theorem readStep_bad {s : Rd} (hw : Wf s.ctx) {e : Res (Img × Option Nat)}
    (hp : parseCard s.ctx.mode (refill s).mem (refill s).len = e) :
    (e = .oob → readStep s = .oob) ∧ (e = .fuel → readStep s = .fuel) := by
  have hm : (grow s.ctx).mode = s.ctx.mode := (grow_spec hw).2.2.2.2.2.1
  constructor
  · rintro rfl
    unfold readStep
    simp only [refill_keeps_ctx, hm, hp, Res.bind_oob]
  · rintro rfl
    unfold readStep
    simp only [refill_keeps_ctx, hm, hp, Res.bind_fuel]

theorem Inv.bytes {s : Rd} {B : List Nat} (h : Inv s B) (hb : ∀ b ∈ B, b < 256) : ∀ i, i < s.len → s.mem i < 256 := by
  obtain ⟨-, ⟨b, b1, b2, b3⟩, -⟩ := h
  intro i hi
  rw [b3 i (by omega)]
  apply hb
  rw [b2]
  exact List.mem_append_left _ (List.getElem_mem _)

theorem Inv.seven {s : Rd} {B : List Nat} (h : Inv s B) (hb : ∀ b ∈ B, b < 128) : Seven s.mem s.len := by
  obtain ⟨-, ⟨b, b1, b2, b3⟩, -⟩ := h
  intro i hi
  rw [b3 i (by omega)]
  apply hb
  rw [b2]
  exact List.mem_append_left _ (List.getElem_mem _)

theorem Inv.len_le {s : Rd} {B : List Nat} (h : Inv s B) : s.len ≤ B.length := by
  obtain ⟨-, ⟨b, b1, b2, b3⟩, -⟩ := h
  rw [b2, List.length_append]; omega

theorem shift_inv {s : Rd} {B : List Nat} (h : Inv s B) (k : Nat) (hk : k ≤ s.len) (c : Ctx) :
    Inv { shift s k with ctx := c } (B.drop k) := by
  obtain ⟨h1, ⟨b, b1, b2, b3⟩, h3⟩ := h
  refine ⟨by simp only [shift]; omega, ⟨b.drop k, by simp [shift, b1], ?_, ?_⟩, h3⟩
  · simp only [shift]
    rw [b2, List.drop_append_of_le_length (by omega)]
  · intro i hi
    rw [List.length_drop] at hi
    simp only [shift]
    rw [if_pos (by omega), b3 _ (by omega), List.getElem_drop]
    congr 1
    omega

theorem refill_last (s : Rd) {B : List Nat} (h : Inv s B) : (refill s).mem 8691 = s.mem 8691 := by
  have hl := (refill_spec h).1.len
  unfold refill at hl ⊢
  split
  · rename_i hc
    simp only [hc, and_self, if_true] at hl ⊢
    rw [if_neg (by omega)]
  · rfl

theorem shift_last (s : Rd) {B : List Nat} (h : Inv s B) (k : Nat) : (shift s k).mem 8691 = s.mem 8691 := by
  have := h.len
  simp only [shift]
  rw [if_neg (by omega)]

/-- Everything one step of the load loop can do. -/
theorem readStep_cases {s : Rd} {B : List Nat} (hw : Wf s.ctx) (hi : Inv s B) (hb : ∀ b ∈ B, b < 256) :
    (∃ s' img, readStep s = .ok s' ∧ Wf s'.ctx ∧ s'.ctx.mode = s.ctx.mode ∧ img.length = 80 ∧
      s'.ctx.content = s.ctx.content ++ [img] ∧ s'.ctx.pos = s.ctx.pos ∧ s'.ctx.out = s.ctx.out ∧
      s'.mem 8691 = s.mem 8691 ∧
      (0 < s'.len → ∃ B', Inv s' B' ∧ (∀ b ∈ B', b ∈ B) ∧
        ((B'.length < B.length ∧ 0 < s'.size) ∨
          (s.size = 0 ∧ B.length < 160 ∧ 0 < B.length ∧
            (s.ctx.mode = .bin ∨ (s.ctx.mode = .auto ∧ B.length = 159)))))) ∨
    (readStep s = .oob ∧ ¬ ByteOk s.ctx.mode (refill s).mem (refill s).len) := by
  obtain ⟨r1, r2, -, -⟩ := refill_spec hi
  have hlB := r1.len_le
  rcases parseCard_total (mode := s.ctx.mode) r1.len (r1.bytes hb) with ⟨img, o, h1, h2, h3⟩ | ⟨h1, h2⟩
  · left
    obtain ⟨c', -, e2, e3, e4, e5, e6, e7⟩ := readStep_ok hw h1
    refine ⟨_, img, e7, e2, e5, h2, e3, e4, e6, ?_, ?_⟩
    · simp only
      rw [shift_last _ r1, refill_last _ hi]
    intro hpos
    have hle : o.getD s.size ≤ (refill s).len := by
      simp only [shift] at hpos; omega
    refine ⟨_, shift_inv r1 _ hle c', fun b hb' => List.mem_of_mem_drop hb', ?_⟩
    rcases h3 with ⟨k, rfl, hk⟩ | ⟨rfl, h4, h5⟩
    · left
      simp only [Option.getD_some, shift] at hpos hle ⊢
      rw [List.length_drop]
      have := hk (by omega)
      omega
    · by_cases hz : s.size = 0
      · right
        simp only [Option.getD_none, hz, shift] at hpos hle ⊢
        have hBl : B.length = (refill s).len := by
          obtain ⟨b, b1, b2, b3⟩ := r1.buf
          rcases r2 with h | h
          · omega
          · rw [b2, h]; simpa using b1
        refine ⟨trivial, by omega, by omega, ?_⟩
        rcases h5 with h5 | ⟨h5, h6⟩
        · exact Or.inl h5
        · exact Or.inr ⟨h5, by omega⟩
      · left
        simp only [Option.getD_none, shift] at hpos hle ⊢
        rw [List.length_drop]
        omega
  · right
    exact ⟨(readStep_bad hw h1).1 rfl, h2⟩

/-- The load loop, from a state that is not stuck: it ends. -/
theorem readLoop_ends {mode : Mode} : ∀ (n : Nat) (s : Rd) (B : List Nat), Wf s.ctx → s.ctx.mode = mode → Inv s B → (∀ b ∈ B, b < 256) →
    B.length < n → (s.size = 0 → 0 < B.length → (mode = .bin → 160 ≤ B.length) ∧ (mode = .auto → B.length ≠ 159)) →
    (∃ c' l, readLoop n s = .ok c' ∧ Wf c' ∧ c'.mode = mode ∧ c'.content = s.ctx.content ++ l ∧ (∀ m ∈ l, m.length = 80) ∧
      c'.pos = s.ctx.pos ∧ c'.out = s.ctx.out) ∨
    (readLoop n s = .oob ∧ (mode ≠ .bin ∧ mode ≠ .ebcdic) ∧ ((∃ b ∈ B, 128 ≤ b) ∨ s.mem 8691 = cr)) := by
  intro n
  induction n with
  | zero => intro s B _ _ _ _ h; omega
  | succ n ih =>
    intro s B hw hm hi hb hn hz
    rcases readStep_cases hw hi hb with ⟨s', img, h1, h2, h3, h4, h5, h6, h7, h8, h9⟩ | ⟨h1, h2⟩
    · by_cases hpos : 0 < s'.len
      · obtain ⟨B', g1, g2, g3⟩ := h9 hpos
        have g4 : B'.length < B.length ∧ 0 < s'.size := by
          rcases g3 with g3 | ⟨g3, g4, g5, g6⟩
          · exact g3
          · have := hz g3 g5
            rw [hm] at g6
            rcases g6 with g6 | ⟨g6, g7⟩
            · have := this.1 g6; omega
            · exact absurd g7 (this.2 g6)
        rcases ih s' B' h2 (by rw [h3, hm]) g1 (fun b hb' => hb b (g2 b hb')) (by omega) (fun h => by omega) with
          ⟨c', l, k1, k2, k3, k4, k5, k6, k7⟩ | ⟨k1, k2, k3⟩
        · left
          refine ⟨c', img :: l, ?_, k2, k3, ?_, ?_, by rw [k6, h6], by rw [k7, h7]⟩
          · simp only [readLoop, h1, Res.bind_ok, if_pos hpos, k1]
          · rw [k4, h5]; simp
          · intro m hm'
            rcases List.mem_cons.mp hm' with rfl | hm'
            · exact h4
            · exact k5 m hm'
        · right
          refine ⟨by simp only [readLoop, h1, Res.bind_ok, if_pos hpos, k1], k2, ?_⟩
          rcases k3 with ⟨b, k3, k4⟩ | k3
          · exact Or.inl ⟨b, g2 b k3, k4⟩
          · right; rw [← h8]; exact k3
      · left
        refine ⟨s'.ctx, [img], by simp only [readLoop, h1, Res.bind_ok, if_neg hpos], h2, by rw [h3, hm], h5, by simpa using h4, h6, h7⟩
    · right
      refine ⟨by simp only [readLoop, h1, Res.bind_oob], ?_, ?_⟩
      · rw [hm] at h2
        cases mode <;> simp_all [ByteOk]
      · by_cases h128 : ∃ b ∈ B, 128 ≤ b
        · exact Or.inl h128
        · right
          have hs : Seven (refill s).mem (refill s).len := by
            apply (refill_spec hi).1.seven
            intro b hb'
            apply Classical.byContradiction
            intro hn'
            exact h128 ⟨b, hb', by omega⟩
          rw [hm] at h2
          rw [← refill_last s hi]
          apply Classical.byContradiction
          intro hn'
          apply h2
          cases mode <;> simp_all [ByteOk]

/-- The state `read_deck` starts its loop in. -/
def startRd (c : Ctx) (junk : Nat → Nat) (file : List Nat) : Rd :=
  { ctx := c, mem := fun i => if i = 0 then 0 else junk i, len := 0, size := 0, rest := file, eof := false }

theorem startRd_inv (c : Ctx) (junk : Nat → Nat) (file : List Nat) : Inv (startRd c junk file) file :=
  ⟨by simp [startRd], ⟨[], rfl, by simp [startRd], by simp⟩, by simp [startRd]⟩

theorem readDeck_eq {n junk c c1 file} (h : moveDown c = .ok c1) :
    readDeck n junk c file = (do let c ← readLoop n (startRd c1 junk file); .ok { c with out := none }) := by
  simp only [readDeck, h, Res.bind_ok]; rfl

/-- Files on which loading ends. -/
def Loadable (mode : Mode) (file : List Nat) : Prop :=
  file = [] ∨ ((mode = .bin → 160 ≤ file.length) ∧ (mode = .auto → file.length ≠ 159))

theorem readDeck_ends {n junk c file} (hw : Wf c) (hb : ∀ b ∈ file, b < 256) (hl : Loadable c.mode file) (hn : file.length < n) :
    (∃ c' l, readDeck n junk c file = .ok c' ∧ Wf c' ∧ c'.mode = c.mode ∧ c'.hopper = c.hopper ++ l ∧ (∀ m ∈ l, m.length = 80) ∧
      c'.pos = 0 ∧ c'.out = none) ∨
    (readDeck n junk c file = .oob ∧ (c.mode ≠ .bin ∧ c.mode ≠ .ebcdic) ∧ ((∃ b ∈ file, 128 ≤ b) ∨ junk 8691 = cr)) := by
  obtain ⟨c1, m1, m2, m3, m4, m5, m6⟩ := moveDown_spec hw
  rw [readDeck_eq m1]
  rcases readLoop_ends (mode := c.mode) n (startRd c1 junk file) file m2 m5 (startRd_inv _ _ _) hb hn (by
      intro _ hpos
      rcases hl with rfl | hl
      · simp at hpos
      · exact hl) with ⟨c', l, k1, k2, k3, k4, k5, k6, k7⟩ | ⟨k1, k2, k3⟩
  · left
    have hz : c'.pos = 0 := by rw [k6]; exact m3
    refine ⟨{ c' with out := none }, l, by simp [k1], ⟨k2.cards, k2.pos⟩, k3, ?_, k5, hz, rfl⟩
    have : c'.content = c.hopper ++ l := by rw [k4, ← m4]; rfl
    simp only [Ctx.hopper, Ctx.content, hz, List.drop_zero] at this ⊢
    exact this
  · right
    refine ⟨by simp [k1], k2, ?_⟩
    rcases k3 with k3 | k3
    · exact Or.inl k3
    · right; simpa [startRd] using k3

/-! ### Loading does not depend on what is in the hopper -/

/-- Two outcomes that appended the same cards. -/
def Same (c1 c2 : Ctx) (r1 r2 : Res Ctx) : Prop :=
  (r1 = .oob ∧ r2 = .oob) ∨ (r1 = .fuel ∧ r2 = .fuel) ∨
  ∃ d1 d2 l, r1 = .ok d1 ∧ r2 = .ok d2 ∧ Wf d1 ∧ Wf d2 ∧ d1.content = c1.content ++ l ∧ d2.content = c2.content ++ l ∧
    d1.pos = c1.pos ∧ d2.pos = c2.pos ∧ d1.mode = c1.mode ∧ d2.mode = c2.mode

theorem readLoop_same : ∀ (n : Nat) (s : Rd) (c1 c2 : Ctx), Wf c1 → Wf c2 → c1.mode = c2.mode →
    Same c1 c2 (readLoop n { s with ctx := c1 }) (readLoop n { s with ctx := c2 }) := by
  intro n
  induction n with
  | zero => intro s c1 c2 _ _ _; exact Or.inr (Or.inl ⟨rfl, rfl⟩)
  | succ n ih =>
    intro s c1 c2 h1 h2 hm
    cases hp : parseCard c1.mode (refill s).mem (refill s).len with
    | ok r =>
      obtain ⟨img, o⟩ := r
      obtain ⟨d1, -, a2, a3, a4, a5, a6, a7⟩ := readStep_ok (s := { s with ctx := c1 }) h1 (img := img) (o := o) (by rw [refill_ctx]; exact hp)
      obtain ⟨d2, -, b2, b3, b4, b5, b6, b7⟩ := readStep_ok (s := { s with ctx := c2 }) h2 (img := img) (o := o) (by rw [refill_ctx, ← hm]; exact hp)
      rw [refill_ctx] at a7 b7
      simp only [readLoop, a7, b7, Res.bind_ok]
      have hlen : ∀ c : Ctx, ({ shift { refill s with ctx := c } (o.getD s.size) with ctx := c } : Rd).len = (refill s).len - o.getD s.size := fun _ => rfl
      by_cases hc : 0 < (refill s).len - o.getD s.size
      · simp only [shift, if_pos hc]
        rcases ih (shift (refill s) (o.getD s.size)) d1 d2 a2 b2 (by rw [a5, b5]; exact hm) with h | h | ⟨e1, e2, l, k1, k2, k3, k4, k5, k6, k7, k8, k9, k10⟩
        · exact Or.inl h
        · exact Or.inr (Or.inl h)
        · refine Or.inr (Or.inr ⟨e1, e2, img :: l, k1, k2, k3, k4, ?_, ?_, by rw [k7, a4], by rw [k8, b4], by rw [k9, a5], by rw [k10, b5]⟩)
          · rw [k5, a3]; simp
          · rw [k6, b3]; simp
      · simp only [shift, if_neg hc]
        exact Or.inr (Or.inr ⟨d1, d2, [img], rfl, rfl, a2, b2, a3, b3, a4, b4, a5, b5⟩)
    | oob =>
      left
      have a := (readStep_bad (s := { s with ctx := c1 }) h1 (e := .oob) (by rw [refill_ctx]; exact hp)).1 rfl
      have b := (readStep_bad (s := { s with ctx := c2 }) h2 (e := .oob) (by rw [refill_ctx, ← hm]; exact hp)).1 rfl
      simp only [readLoop, a, b, Res.bind_oob, and_self]
    | fuel =>
      right; left
      have a := (readStep_bad (s := { s with ctx := c1 }) h1 (e := .fuel) (by rw [refill_ctx]; exact hp)).2 rfl
      have b := (readStep_bad (s := { s with ctx := c2 }) h2 (e := .fuel) (by rw [refill_ctx, ← hm]; exact hp)).2 rfl
      simp only [readLoop, a, b, Res.bind_fuel, and_self]

theorem fresh_wf (mode : Mode) : Wf (fresh mode) := ⟨by simp [fresh], by simp [fresh]⟩

theorem hopper_zero {c : Ctx} (h : c.pos = 0) : c.hopper = c.content := by simp [Ctx.hopper, h]

/-- Loading into any hopper appends what loading into an empty one gives. -/
theorem readDeck_same {n junk c file c0} (hw : Wf c) (h : readDeck n junk (fresh c.mode) file = .ok c0) :
    ∃ c', readDeck n junk c file = .ok c' ∧ Wf c' ∧ c'.mode = c.mode ∧ c'.hopper = c.hopper ++ c0.hopper ∧ c'.out = none := by
  obtain ⟨c1, m1, m2, m3, m4, m5, m6⟩ := moveDown_spec hw
  have m0 : moveDown (fresh c.mode) = .ok (fresh c.mode) := rfl
  rw [readDeck_eq m0] at h
  rw [readDeck_eq m1]
  have hs := readLoop_same n (startRd c1 junk file) c1 (fresh c.mode) m2 (fresh_wf _) m5
  have e1 : ({ startRd c1 junk file with ctx := c1 } : Rd) = startRd c1 junk file := rfl
  have e2 : ({ startRd c1 junk file with ctx := fresh c.mode } : Rd) = startRd (fresh c.mode) junk file := rfl
  rw [e1, e2] at hs
  rcases hs with ⟨a, b⟩ | ⟨a, b⟩ | ⟨d1, d2, l, k1, k2, k3, k4, k5, k6, k7, k8, k9, k10⟩
  · simp [b] at h
  · simp [b] at h
  · simp only [k2, Res.bind_ok, Res.ok.injEq] at h
    simp only [k1, Res.bind_ok]
    refine ⟨_, rfl, ⟨k3.cards, k3.pos⟩, by simp only; rw [k9, m5], ?_, rfl⟩
    have z1 : d1.pos = 0 := by rw [k7, m3]
    have z2 : d2.pos = 0 := by rw [k8]; rfl
    have : c0.hopper = l := by
      rw [← h]
      show d2.hopper = l
      rw [hopper_zero z2, k6]; simp [fresh, Ctx.content]
    rw [this]
    show d1.hopper = _
    rw [hopper_zero z1, k5, m4]

end Verif.Card
