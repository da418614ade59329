import Verif.Bus.Model
import Verif.Xlat.Props
/-
What the channel interface asks of every device, and a channel that performs the standard sequences.
-/
namespace Verif.Bus
open Verif.Card (Res)

namespace Spec

/-- A nine-bit byte with an odd number of ones. -/
def goodParity (b : Nat) : Prop := b < 512 ∧ Xlat.ones 9 b % 2 = 1

instance (b : Nat) : Decidable (goodParity b) := inferInstanceAs (Decidable (_ ∧ _))

/-- The byte `v` with its parity bit. -/
def byte (v : Nat) : Nat := v + (if Xlat.ones 8 v % 2 = 0 then 256 else 0)

/-- The device leaves the channel's own lines alone; it may only take select out. -/
def outKept (t t' : Tags) : Prop :=
  t'.adr = t.adr ∧ t'.cmd = t.cmd ∧ t'.srv = t.srv ∧ t'.sup = t.sup ∧ t'.hld = t.hld ∧ t'.opr = t.opr ∧ (t'.sel = true → t.sel = true)

/-- The lines only the device that owns the interface may drive are as before. -/
def inKept (t t' : Tags) : Prop := t'.oprIn = t.oprIn ∧ t'.adrIn = t.adrIn ∧ t'.staIn = t.staIn ∧ t'.srvIn = t.srvIn

/-- Some line among operational, address, status and service in comes up. -/
def raises (t t' : Tags) : Prop :=
  (t.oprIn = false ∧ t'.oprIn = true) ∨ (t.adrIn = false ∧ t'.adrIn = true) ∨ (t.staIn = false ∧ t'.staIn = true) ∨ (t.srvIn = false ∧ t'.srvIn = true)

/-- All lines of the device are down. -/
def inDown (t : Tags) : Prop := t.oprIn = false ∧ t.adrIn = false ∧ t.staIn = false ∧ t.srvIn = false

/-- What the interface asks of one call of a device's bus function.  `own` and `own'` say that the device has the
interface before and after the call, `wants` that it asks for service. -/
structure Disciplined (own own' : Prop) (addr : Nat) (wants : Prop) (t : Tags) (bo bi : Nat) (t' : Tags) (bi' : Nat) : Prop where
  /-- the channel's lines are left alone, except that select out may be taken -/
  out : outKept t t'
  /-- what is put on bus in has odd parity -/
  parity : bi' = bi ∨ goodParity bi'
  /-- lines come up only when the device has the interface, or answers busy -/
  owner : raises t t' → own'
  /-- it gets the interface only by taking select out, when nobody has it, when it is addressed or wants service -/
  selection : ¬ own → own' → t.oprIn = false ∧ t.sel = true ∧ t'.sel = false ∧
    ((t.adr = true ∧ bo % 256 = addr % 256) ∨ (t.adr = false ∧ t.sup = false ∧ wants))
  /-- while it has not, it drives neither the bus nor any line but request in, and passes select out -/
  quiet : ¬ own → ¬ own' → (t.opr = true ∨ t.sup = true) → inKept t t' ∧ bi' = bi ∧ t'.sel = t.sel

/-- Device, tags and bus in. -/
structure Link (σ : Type) where
  s : σ
  t : Tags
  bi : Nat

/-- The channel sets its lines by `f`, puts `bo` on bus out and the device is called once. -/
def poll {σ : Type} (dev : σ → Tags → Nat → Nat → Res (σ × Tags × Nat)) (L : Link σ) (f : Tags → Tags) (bo : Nat) : Res (Link σ) :=
  (dev L.s (f L.t) bo L.bi).bind (fun r => .ok ⟨r.1, r.2.1, r.2.2⟩)

/-- Initial selection: address out with select out (and hold out on a selector channel), address out drops, command out
with the command, command out drops. At the end the device should present its initial status. -/
def initialSelection {σ : Type} (dev : σ → Tags → Nat → Nat → Res (σ × Tags × Nat)) (L : Link σ) (addr cmd : Nat) (hold : Bool) : Res (Link σ) :=
  (poll dev L (fun t => { t with adr := true, sel := true, hld := hold }) (byte addr)).bind fun L =>
  (poll dev L (fun t => { t with adr := false }) (byte addr)).bind fun L =>
  (poll dev L (fun t => { t with cmd := true }) (byte cmd)).bind fun L =>
  poll dev L (fun t => { t with cmd := false }) 0

/-- The channel accepts status or data: service out up, then down. -/
def accept {σ : Type} (dev : σ → Tags → Nat → Nat → Res (σ × Tags × Nat)) (L : Link σ) (bo : Nat) : Res (Link σ) :=
  (poll dev L (fun t => { t with srv := true }) bo).bind fun L =>
  poll dev L (fun t => { t with srv := false }) 0

/-- The interface at rest: operational out up, everything else down. -/
def rest : Tags := { opr := true }

end Spec

/-! ## Parity facts -/

theorem tab_par (v : Nat) (h : v < 256) : Xlat.oddParity v = some (oddParityTab.getD v 0) ∧ v ||| oddParityTab.getD v 0 = Spec.byte v ∧ Spec.goodParity (Spec.byte v) := by
  have key : ∀ v : Fin 256, Xlat.oddParity v = some (oddParityTab.getD v 0) ∧ v.val ||| oddParityTab.getD v 0 = Spec.byte v ∧ Spec.goodParity (Spec.byte v) := by
    decide +kernel
  exact key ⟨v, h⟩

theorem withPar_ok (v : Nat) (h : v < 256) : withPar v = .ok (Spec.byte v) := by
  obtain ⟨h1, h2, -⟩ := tab_par v h
  unfold withPar
  rw [h1]
  show Res.ok (v ||| _) = _
  rw [h2]

theorem oddParityTab_len : oddParityTab.length = 256 := by decide +kernel

theorem withPar_oob (v : Nat) (h : 256 ≤ v) : withPar v = .oob := by
  unfold withPar Xlat.oddParity
  rw [List.getElem?_eq_none (by rw [oddParityTab_len]; exact h)]
  rfl

theorem bytePar_eq (v : Nat) : bytePar v = Spec.byte (v % 256) := (tab_par (v % 256) (Nat.mod_lt _ (by decide))).2.1

theorem byte_good (v : Nat) (h : v < 256) : Spec.goodParity (Spec.byte v) := (tab_par v h).2.2

theorem bytePar_good (v : Nat) : Spec.goodParity (bytePar v) := by rw [bytePar_eq]; exact byte_good _ (Nat.mod_lt _ (by decide))

theorem byte_mod (v : Nat) (h : v < 256) : Spec.byte v % 256 = v := by
  unfold Spec.byte; split <;> omega

/-- A good byte is accepted. -/
theorem parBad_byte (v : Nat) (h : v < 256) : parBad (Spec.byte v) = false := by
  have key : ∀ v : Fin 256, parBad (Spec.byte v) = false := by decide +kernel
  exact key ⟨v, h⟩

/-- The check accepts exactly the nine-bit bytes with odd parity. -/
theorem parBad_iff (b : Nat) (h : b < 512) : parBad b = false ↔ Spec.goodParity b := by
  have key : ∀ b : Fin 512, parBad b = false ↔ Spec.goodParity b := by decide +kernel
  exact key ⟨b, h⟩

/-! ## Running the channel -/

theorem bind_ok {α β : Type} {x : Res α} {a : α} {f : α → Res β} {r : Res β} (h : x = .ok a) (g : f a = r) : x.bind f = r := by
  rw [h]; exact g

theorem poll_ok {σ : Type} {dev : σ → Tags → Nat → Nat → Res (σ × Tags × Nat)} {L : Spec.Link σ} {f : Tags → Tags} {bo : Nat} {s : σ} {t : Tags} {bi : Nat}
    (h : dev L.s (f L.t) bo L.bi = .ok (s, t, bi)) : Spec.poll dev L f bo = .ok ⟨s, t, bi⟩ := by
  unfold Spec.poll; rw [h]; rfl

end Verif.Bus
