import Verif.Dev1442.Props
/-!
# Concrete 1442 devices that meet the hypotheses of the theorems
-/
namespace Verif.Dev1442
open Verif.Bus
open Verif.Card (Res Img)

/-- A card with A, B and blanks, and a card with an invalid column. -/
def cardA : Img := 0x900 :: 0x880 :: List.replicate 78 0
def cardB : Img := 0xfff :: List.replicate 79 0

theorem cardA_card : Card.Card cardA := ⟨by decide, by decide⟩
theorem cardB_card : Card.Card cardB := ⟨by decide, by decide⟩
theorem blank_card : Card.Card Card.blank := ⟨by decide, by decide⟩

/-- A reader with one card at the read station, one at the punch station and two in the hopper, end of file pressed. -/
def demo : S :=
  { init 0x0a with k := { (init 0x0a).k with hop := { Card.initCtx with images := [cardB, cardA], cards := 2 }, rdrCard := cardA, rdrFull := true, hopCnt := 2, pchCard := Card.blank, pchFull := true, rdy := true, eof := true } }

theorem demo_inv : Inv demo := by
  refine ⟨by decide, by decide, ⟨⟨by decide, by decide⟩, ?_, Card.initCtx_wf, ?_, Card.initCtx_wf, ?_, cardA_card, blank_card⟩⟩
  · intro m hm
    have : demo.k.hop.hopper = [cardB, cardA] := rfl
    rw [this] at hm
    simp only [List.mem_cons, List.not_mem_nil, or_false] at hm
    rcases hm with rfl | rfl
    · exact cardB_card
    · exact cardA_card
  · intro m hm; cases hm
  · intro m hm; cases hm

theorem demo_loaded : Spec.Loaded demo cardA [cardB, cardA] :=
  ⟨demo_inv, ⟨rfl, rfl, rfl, rfl⟩, rfl, rfl, rfl, rfl, rfl, rfl, rfl⟩

/-- The whole deck of `demo` is read by three commands. -/
example : ∃ (L : Spec.Link S) (gs : List Spec.Got), Spec.readCards 0x0a 2 3 ⟨demo, Spec.rest, 0⟩ = .ok (L, gs) ∧ Spec.gotCards [cardA, cardB, cardA] gs := by
  obtain ⟨L, gs, h1, h2, -⟩ := C76_read_deck 2 (Or.inl rfl) [cardB, cardA] demo 0 cardA demo_loaded rfl
  exact ⟨L, gs, h1, h2⟩

example : Spec.writeOne ⟨demo, Spec.rest, 0⟩ 0x0a 0xc3 = .oob :=
  C44_violated_write_byte demo 0 0xc3 demo_loaded.rest demo_inv rfl rfl (by decide) (by decide) (by decide)

/-- A feed moves the cards of `demo` one place on. -/
example : ∃ s', run demo [.nproKey] = .ok s' ∧ path s'.k = { hopper := [cardA], reader := some cardB, punch := some cardA, stk1 := [Card.blank], stk2 := [] } := by
  obtain ⟨s', h1, h2, h3, h4⟩ := feed_spec demo_inv
  refine ⟨counts { s' with k := { s'.k with eof := false } }, by simp [run, step, keyNpro, h1, Res.bind], ?_⟩
  show path s'.k = _
  rw [h4]
  rfl

/-- The device is busy and not selected while the card of a read is fed, so the hypotheses of `C45_violated_busy` and
`C79_violated_feed_after_reset` are met on the way of every read. -/
example : ∃ x d, (feeding demo.addr 2 demo.k false x d).st = .idle ∧ (feeding demo.addr 2 demo.k false x d).busy = true ∧ (feeding demo.addr 2 demo.k false x d).selected = false ∧
    (feeding demo.addr 2 demo.k false x d).evs = [.feed] ∧ (path (feeding demo.addr 2 demo.k false x d).k).hopper = [cardB, cardA] := ⟨0, 0, rfl, rfl, rfl, rfl, rfl⟩

/-- A stacked status: the channel answers the status of a rejected command with command out. -/
example : ∃ L1 L2 : Spec.Link S, Spec.initialSelection dev ⟨demo, Spec.rest, 0⟩ 0x0a 0x19 true = .ok L1 ∧ Spec.poll dev L1 (fun t => { t with cmd := true }) 0 = .ok L2 ∧ L2.s.stacked = true := by
  obtain ⟨s', t', h1, h2, h3, h4, h5, h6, h7⟩ := C43_rejected_partial demo 0 0x19 true demo_loaded.rest demo_inv.sense (by decide) (by decide) (by decide)
  have hst : (selectedWith demo 0x19).status = 14 := by decide
  refine ⟨_, ⟨{ selectedWith demo 0x19 with stacked := true, st := .statusWait }, { Spec.rest with hld := true, cmd := true }, Spec.byte 14⟩, initialSelection_eq demo 0 0x19 true demo_loaded.rest demo_inv.sense (by decide), poll_ok ?_, rfl⟩
  simp [dev, statusAccept, hst, withPar_ok 14 (by decide), Spec.rest, Res.bind]

end Verif.Dev1442
