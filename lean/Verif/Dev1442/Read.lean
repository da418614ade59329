import Verif.Dev1442.Select
/-!
# Reading cards through the channel (C76)
-/
namespace Verif.Dev1442
open Verif.Bus
open Verif.Card (Res Img)

/-! ## Specification -/

/-- A pending event of the device fires. -/
def Spec.fire (L : Spec.Link S) (c : Cb) : Res (Spec.Link S) := (step L.s (.fire c)).bind fun s => .ok ⟨s, L.t, L.bi⟩

/-- The byte a column stands for: the one punched so, zero if there is none. -/
def Spec.reads (col v : Nat) : Prop :=
  (v < 256 ∧ Card.ebcdicToHol v = some col) ∨ (v = 0 ∧ ∀ e, e < 256 → Card.ebcdicToHol e ≠ some col)

/-- The bytes of a card. -/
def Spec.readsCard (m : Img) (vs : List Nat) : Prop := vs.length = m.length ∧ ∀ (i c v : Nat), m[i]? = some c → vs[i]? = some v → Spec.reads c v

/-- One byte on a selector channel: the reader's column event, the device asks for service, the channel takes bus in. -/
def Spec.takeOne (L : Spec.Link S) : Res (Spec.Link S × Nat) :=
  (Spec.fire L .read).bind fun L =>
  (Spec.poll dev L id 0).bind fun L =>
  (Spec.poll dev L id 0).bind fun L =>
  (Spec.accept dev L 0).bind fun L' => .ok (L', L.bi)

/-- `n` bytes. -/
def Spec.takeMany : Nat → Spec.Link S → Res (Spec.Link S × List Nat)
  | 0, L => .ok (L, [])
  | n + 1, L => (Spec.takeOne L).bind fun r => (takeMany n r.1).bind fun r' => .ok (r'.1, r.2 :: r'.2)

/-- What the channel gets from one read command. -/
structure Spec.Got where
  /-- initial status -/
  first : Nat
  data : List Nat
  /-- ending status -/
  ending : Nat
  /-- address given with the later request for service -/
  addr : Nat
  /-- status given then -/
  last : Nat

/-- A read command on a selector channel until the ending status is presented: selection, the initial status is
accepted, 80 bytes, status. Gives the initial status and the bytes. -/
def Spec.readData (L : Spec.Link S) (addr cmd : Nat) : Res (Spec.Link S × Nat × List Nat) :=
  (Spec.initialSelection dev L addr cmd true).bind fun L1 =>
  (Spec.accept dev L1 0).bind fun L2 =>
  (Spec.takeMany 80 L2).bind fun r =>
  (Spec.fire r.1 .read).bind fun L3 =>
  (Spec.poll dev L3 id 0).bind fun L4 =>
  (Spec.poll dev L4 id 0).bind fun L5 => .ok (L5, L1.bi, r.2)

/-- The end of the command: the ending status is accepted and hold out drops, the feed ends. -/
def Spec.readFeed (L : Spec.Link S) : Res (Spec.Link S) :=
  (Spec.poll dev L (fun t => { t with srv := true, hld := false }) 0).bind fun L6 =>
  (Spec.poll dev L6 (fun t => { t with srv := false }) 0).bind fun L7 =>
  Spec.fire L7 .feed

/-- The device asks for service, is selected, gives its address and its status, which is accepted. -/
def Spec.service (L : Spec.Link S) : Res (Spec.Link S × Nat × Nat) :=
  (Spec.poll dev L id 0).bind fun L9 =>
  (Spec.poll dev L9 (fun t => { t with sel := true }) 0).bind fun L10 =>
  (Spec.poll dev L10 id 0).bind fun L11 =>
  (Spec.poll dev L11 (fun t => { t with cmd := true }) (Spec.byte 0)).bind fun L12 =>
  (Spec.poll dev L12 (fun t => { t with cmd := false }) 0).bind fun L13 =>
  (Spec.accept dev L13 0).bind fun L14 => .ok (L14, L11.bi, L13.bi)

/-- The whole read command. -/
def Spec.readCard (L : Spec.Link S) (addr cmd : Nat) : Res (Spec.Link S × Spec.Got) :=
  (Spec.readData L addr cmd).bind fun a =>
  (Spec.readFeed a.1).bind fun L8 =>
  (Spec.service L8).bind fun b =>
  .ok (b.1, { first := a.2.1, data := a.2.2, ending := a.1.bi, addr := b.2.1, last := b.2.2 })

/-! ## One byte -/

/-- The device between two columns of a read. -/
def reading (addr cmd : Nat) (k : K) (dep : Bool) (x d i : Nat) : S :=
  { st := .opr, addr, request := false, stacked := false, selected := true, disconnect := false, busy := true, sense := x, cmd, status := 0, data := d, cmdDone := false, dataRdy := false, dataEnd := false, dataEndPost := dep, feedDone := false, evs := [.read], k := { k with rdrCol := i } }

/-- The tags while it holds the interface. -/
def held : Tags := { Spec.rest with hld := true, oprIn := true }

theorem column_reads (c : Nat) (h : c < 4096) : ∃ d, Card.holToEbcdic c = some d ∧ d < 0x101 ∧ Spec.reads c (if d = 0x100 then 0 else d) ∧
    (d = 0x100 ↔ ∀ e, e < 256 → Card.ebcdicToHol e ≠ some c) := by
  obtain ⟨h1, h2⟩ := Card.C14_invalid_columns c h
  cases hd : Card.holToEbcdic c with
  | none => exact absurd ((Card.C14_table_bound c).mp hd) (by omega)
  | some d =>
    by_cases hi : ∀ e, e < 256 → Card.ebcdicToHol e ≠ some c
    · have := h2.mpr hi
      rw [hd] at this
      cases this
      exact ⟨_, rfl, by decide, Or.inr ⟨rfl, hi⟩, ⟨fun _ => hi, fun _ => rfl⟩⟩
    · have : ∃ e, e < 256 ∧ Card.ebcdicToHol e = some c := by
        apply Classical.byContradiction
        intro hn
        exact hi (fun e he hq => hn ⟨e, he, hq⟩)
      obtain ⟨e, he, hq⟩ := this
      have hde := (h1 e he).mpr hq
      rw [hd] at hde
      cases hde
      refine ⟨_, rfl, by omega, Or.inl ?_, ⟨fun hx => by omega, fun hx => absurd hx hi⟩⟩
      rw [if_neg (by omega)]
      exact ⟨he, hq⟩

theorem takeOne_eq (addr : Nat) (cmd : Nat) (hc : cmd = 2 ∨ cmd = 0x22) (k : K) (dep : Bool) (x d i bi c : Nat) (hi : i < 80) (hm : k.rdrCard[i]? = some c) (hlt : c < 4096) :
    ∃ v x', Spec.takeOne ⟨reading addr cmd k dep x d i, held, bi⟩ = .ok (⟨reading addr cmd k dep x' v (i + 1), held, Spec.byte v⟩, Spec.byte v) ∧ Spec.reads c v ∧ v < 256 ∧
      x' = (if ∀ e, e < 256 → Card.ebcdicToHol e ≠ some c then x ||| eDatChk else x) := by
  obtain ⟨e, e1, e2, e3, e4⟩ := column_reads c hlt
  refine ⟨if e = 0x100 then 0 else e, _, ?_, e3, by split <;> omega, rfl⟩
  generalize hx : (if ∀ e, e < 256 → Card.ebcdicToHol e ≠ some c then x ||| eDatChk else x) = x'
  generalize hv : (if e = 0x100 then 0 else e) = v
  have hv8 : v < 256 := by rw [← hv]; split <;> omega
  have p0 : Spec.fire ⟨reading addr cmd k dep x d i, held, bi⟩ .read =
      .ok ⟨{ reading addr cmd k dep x' v (i + 1) with dataRdy := true, request := true }, held, bi⟩ := by
    have : step (reading addr cmd k dep x d i) (.fire .read) = .ok { reading addr cmd k dep x' v (i + 1) with dataRdy := true, request := true } := by
      have hf : step (reading addr cmd k dep x d i) (.fire .read) = readCb { reading addr cmd k dep x d i with evs := [] } := rfl
      rw [hf]
      unfold readCb
      rw [if_neg (by simp [reading]), if_pos (by rfl), if_pos (by exact hi)]
      have g1 : Card.getCol ({ reading addr cmd k dep x d i with evs := [] } : S).k.rdrCard ({ reading addr cmd k dep x d i with evs := [] } : S).k.rdrCol = .ok c := by
        show Card.look (k.rdrCard[i]?) = _
        rw [hm]; rfl
      have g2 : Card.look (Card.holToEbcdic c) = .ok e := by rw [e1]; rfl
      refine bind_ok g1 (bind_ok g2 ?_)
      simp only
      by_cases hq : e = 0x100
      · rw [if_pos hq] at hv
        rw [if_pos (e4.mp hq)] at hx
        rw [if_pos hq, ← hv, ← hx]
        rfl
      · rw [if_neg hq] at hv
        rw [if_neg (fun hh => hq (e4.mpr hh))] at hx
        rw [if_neg hq, ← hv, ← hx]
        rfl
    unfold Spec.fire
    exact bind_ok this rfl
  have p1 : dev { reading addr cmd k dep x' v (i + 1) with dataRdy := true, request := true } held 0 bi =
      .ok ({ reading addr cmd k dep x' v (i + 1) with dataRdy := true, st := .data1 }, held, bi) := rfl
  have p2 : dev { reading addr cmd k dep x' v (i + 1) with dataRdy := true, st := .data1 } held 0 bi =
      .ok ({ reading addr cmd k dep x' v (i + 1) with dataRdy := true, st := .data2 }, { held with srvIn := true }, Spec.byte v) := by
    show (withPar v).bind _ = _
    rw [withPar_ok _ hv8]; rfl
  have p3 : dev { reading addr cmd k dep x' v (i + 1) with dataRdy := true, st := .data2 } { held with srvIn := true, srv := true } 0 (Spec.byte v) =
      .ok ({ reading addr cmd k dep x' v (i + 1) with disconnect := true }, { held with srv := true }, Spec.byte v) := by
    have ht : tst cmd 1 = false := by rcases hc with rfl | rfl <;> decide
    simp [dev, data2, takeByte, reading, held, Spec.rest, ht, withPar_ok _ hv8, Res.bind]
  have p4 : dev { reading addr cmd k dep x' v (i + 1) with disconnect := true } held 0 (Spec.byte v) =
      .ok (reading addr cmd k dep x' v (i + 1), held, Spec.byte v) := by
    rcases hc with rfl | rfl <;> rfl
  unfold Spec.takeOne Spec.accept
  exact bind_ok p0 (bind_ok (poll_ok p1) (bind_ok (poll_ok p2) (bind_ok (bind_ok (poll_ok p3) (poll_ok p4)) rfl)))

/-- Some column of the card stands for no byte. -/
def Spec.badCard (m : Img) : Prop := ∃ c ∈ m, ∀ e, e < 256 → Card.ebcdicToHol e ≠ some c

theorem takeMany_eq (addr : Nat) (cmd : Nat) (hc : cmd = 2 ∨ cmd = 0x22) (k : K) (dep : Bool) (hm : Card.Card k.rdrCard) :
    ∀ (n i x d bi : Nat), i + n = 80 → x < 256 → ∃ (vs : List Nat) (x' d' bi' : Nat), Spec.takeMany n ⟨reading addr cmd k dep x d i, held, bi⟩ = .ok (⟨reading addr cmd k dep x' d' 80, held, bi'⟩, vs.map Spec.byte) ∧
      vs.length = n ∧ (∀ (j c v : Nat), k.rdrCard[i + j]? = some c → vs[j]? = some v → Spec.reads c v) ∧ x' < 256 ∧
      ((x' = x ∧ ¬ Spec.badCard (k.rdrCard.drop i)) ∨ (x' = x ||| eDatChk ∧ Spec.badCard (k.rdrCard.drop i))) := by
  intro n
  induction n with
  | zero =>
    intro i x d bi hi hx
    have : i = 80 := by omega
    subst this
    refine ⟨[], x, d, bi, rfl, rfl, by simp, hx, Or.inl ⟨rfl, ?_⟩⟩
    rw [List.drop_eq_nil_of_le (by rw [hm.1]; exact Nat.le_refl _)]
    rintro ⟨c, hc, -⟩
    cases hc
  | succ n ih =>
    intro i x d bi hi hx
    have hil : i < k.rdrCard.length := by rw [hm.1]; omega
    have hget : k.rdrCard[i]? = some k.rdrCard[i] := by simp [hil]
    obtain ⟨v, x1, e1, e2, e3, e4⟩ := takeOne_eq addr cmd hc k dep x d i bi k.rdrCard[i] (by omega) hget (hm.2 _ (List.getElem_mem hil))
    have hx1 : x1 < 256 := by
      rw [e4]; split
      · exact or8 hx (by decide)
      · exact hx
    obtain ⟨vs, x', d', bi', f1, f2, f3, f4, f5⟩ := ih (i + 1) x1 v (Spec.byte v) (by omega) hx1
    refine ⟨v :: vs, x', d', bi', ?_, by simp [f2], ?_, f4, ?_⟩
    · unfold Spec.takeMany
      rw [e1]
      show (Spec.takeMany n _).bind _ = _
      rw [f1]; rfl
    · intro j c w h1 h2
      cases j with
      | zero =>
        simp only [Nat.add_zero, hget, Option.some.injEq] at h1
        simp only [List.getElem?_cons_zero, Option.some.injEq] at h2
        subst h1 h2
        exact e2
      | succ j =>
        exact f3 j c w (by rw [← h1]; congr 1; omega) (by simpa using h2)
    · have hd : k.rdrCard.drop i = k.rdrCard[i] :: k.rdrCard.drop (i + 1) := List.drop_eq_getElem_cons hil
      have hb : Spec.badCard (k.rdrCard.drop i) ↔ (∀ e, e < 256 → Card.ebcdicToHol e ≠ some k.rdrCard[i]) ∨ Spec.badCard (k.rdrCard.drop (i + 1)) := by
        rw [hd]
        unfold Spec.badCard
        simp only [List.mem_cons, exists_eq_or_imp]
      have hor : ∀ y : Nat, y ||| eDatChk ||| eDatChk = y ||| eDatChk := fun y => by rw [Nat.or_assoc, Nat.or_self]
      rw [hb]
      by_cases hq : ∀ e, e < 256 → Card.ebcdicToHol e ≠ some k.rdrCard[i]
      · rw [if_pos hq] at e4
        right
        refine ⟨?_, Or.inl hq⟩
        rcases f5 with ⟨g1, -⟩ | ⟨g1, -⟩
        · rw [g1, e4]
        · rw [g1, e4, hor]
      · rw [if_neg hq] at e4
        rw [e4] at f5
        rcases f5 with ⟨g1, g2⟩ | ⟨g1, g2⟩
        · exact Or.inl ⟨g1, fun h => h.elim hq g2⟩
        · exact Or.inr ⟨g1, Or.inr g2⟩

end Verif.Dev1442
