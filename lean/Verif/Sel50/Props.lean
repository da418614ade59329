import Verif.Sel50.ReadRun

/-! # Properties of reading on a selector channel of the 2050 -/

namespace Verif.Sel50

instance (c : Chan) : Decidable (Reading c) := by unfold Reading; infer_instance

instance (i : Nat) (s : Rd) : (e : RdEv) → Decidable (e.Ok i s)
  | .cycle _ _ _ => by unfold RdEv.Ok; infer_instance
  | .gate _ => by unfold RdEv.Ok; infer_instance
  | .store => by unfold RdEv.Ok; infer_instance
  | .count _ => by unfold RdEv.Ok; infer_instance
  | .stop => by unfold RdEv.Ok; infer_instance

/-- **C139** Whatever the device and the microprogram do and when, at every moment of a read the bytes
accepted from the device are, in order, those that have gone to storage followed by those which the
channel still holds. None is lost, doubled or out of order. -/
theorem C139_read_partial {i : Nat} {s t : Rd} (b : s.Begin) (h : Rd.Run i s t) :
    t.taken = t.stored ++ t.pending := (h.inv b.inv).eq

/-- **C139** What is in storage is always the beginning of what the device sent. -/
theorem C139_prefix_partial {i : Nat} {s t : Rd} (b : s.Begin) (h : Rd.Run i s t) :
    t.stored <+: t.taken := ⟨t.pending, (C139_read_partial b h).symm⟩

/-- **C139** When the device presents its status and the channel goes on to end the operation, every
byte accepted has gone to storage. -/
theorem C139_complete_partial {i : Nat} {s t : Rd} (b : s.Begin) (h : Rd.Run i s t) {n : In}
    {ga gw : Glob} (ok : (RdEv.cycle n ga gw).Ok i t) (hs : n.t.staIn = true) (hq : t.c.chreq = 0)
    (he : (t.step i (.cycle n ga gw)).c.chreq = 0x10) :
    (t.step i (.cycle n ga gw)).stored = (t.step i (.cycle n ga gw)).taken := by
  have v := h.inv b.inv
  have v' := (v.step ok).eq
  have hsv : n.t.srvIn = false := by
    have := ok.2.2.1
    rw [hs] at this; simpa using this
  have := cycled_end (i := i) (n := n) v.ci ok.1 hq hsv ok.2.2.2 he
  have e : (t.step i (.cycle n ga gw)).pending = [] := this
  rw [e, List.append_nil] at v'
  exact v'.symm

/-! ### A whole read of five bytes, from the third byte of a word, shows the hypotheses are met -/

/-- Play events, as long as each is allowed. -/
def Rd.play (i : Nat) (s : Rd) : List RdEv → Option Rd
  | [] => some s
  | e :: es => if e.Ok i s then (s.step i e).play i es else none

theorem Rd.play_run {i : Nat} {s : Rd} : ∀ {es : List RdEv} {t u : Rd}, Rd.Run i s t →
    t.play i es = some u → Rd.Run i s u
  | [], t, u, h, e => by simp only [Rd.play, Option.some.injEq] at e; subst e; exact h
  | a :: es, t, u, h, e => by
    unfold Rd.play at e
    split at e
    · rename_i ok; exact Rd.play_run (h.step a ok) e
    · contradiction

/-- Operational in with service in, or not. -/
def inT (srvIn srv : Bool) : Verif.Bus.Tags := { oprIn := true, srvIn := srvIn, srv := srv }
/-- The device offers a byte, and drops service in after service out. -/
def sends (b : B) : List RdEv :=
  [.cycle ⟨inT true false, b, oddPar b⟩ {} {}, .cycle ⟨inT false true, 0, true⟩ {} {}]
/-- A cycle in which the device asks for nothing. -/
def idle (g : Glob) : RdEv := .cycle ⟨inT false false, 0, true⟩ {} g

def rdStart : Rd := { c := { op := 4, gp := 0x40, tags := { opr := true } } }

theorem rdStart_begin : rdStart.Begin :=
  ⟨by decide, rfl, rfl, rfl, ⟨rfl, rfl, rfl⟩, rfl, rfl, rfl, rfl, by decide⟩

/-- Two bytes fill the word; it goes to local storage and to main storage while three more come; the
device then presents its status, so the part of a word is stored too. -/
def rdPlay : List RdEv :=
  sends 0x11 ++ sends 0x22 ++ [idle {}, .gate 0, idle { last := true }, idle {}, idle {}, .store] ++
  sends 0x33 ++ [idle { last := true }] ++ sends 0x44 ++ sends 0x55 ++
  [.cycle ⟨{ oprIn := true, staIn := true }, 0x0c, true⟩ {} {},
   .cycle ⟨{ oprIn := true, staIn := true }, 0x0c, true⟩ {} {}, .gate 0,
   .cycle ⟨{ oprIn := true, staIn := true }, 0x0c, true⟩ {} { last := true },
   .cycle ⟨{ oprIn := true, staIn := true }, 0x0c, true⟩ {} {},
   .cycle ⟨{ oprIn := true, staIn := true }, 0x0c, true⟩ {} {}, .store,
   .cycle ⟨{ oprIn := true, staIn := true }, 0x0c, true⟩ {} { last := true }]

def rdLast : RdEv := .cycle ⟨{ oprIn := true, staIn := true }, 0x0c, true⟩ {} {}

def rdSeen (o : Option Rd) : Option (List B × List B × B) := o.map (fun t => (t.taken, t.stored, t.c.chreq))

theorem C139_example : rdSeen (rdStart.play 1 rdPlay) =
    some ([0x11, 0x22, 0x33, 0x44, 0x55], [0x11, 0x22, 0x33, 0x44, 0x55], 0) := by decide +kernel

theorem C139_example_end : rdSeen (rdStart.play 1 (rdPlay ++ [rdLast])) =
    some ([0x11, 0x22, 0x33, 0x44, 0x55], [0x11, 0x22, 0x33, 0x44, 0x55], 0x10) := by decide +kernel

end Verif.Sel50
