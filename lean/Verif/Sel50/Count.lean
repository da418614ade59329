import Verif.Sel50.Hand

/-! # The end of the count, and the handshake with the device, while reading -/

namespace Verif.Sel50

/-- Events in which the microprogram does not look at the count, and storage protection does not stop
the transfer. -/
def RdEv.quiet : RdEv → Bool
  | .count _ => false
  | .stop => false
  | _ => true

/-- A run of such events. -/
inductive Rd.Quiet (i : Nat) : Rd → Rd → Prop where
  | refl (s) : Rd.Quiet i s s
  | step {s t} (e : RdEv) : Rd.Quiet i s t → e.Ok i t → e.quiet = true → Rd.Quiet i s (t.step i e)

theorem Rd.Quiet.run {i : Nat} {s t u : Rd} (h : Rd.Quiet i s t) (r : Rd.Run i u s) : Rd.Run i u t := by
  induction h with
  | refl => exact r
  | step e _ ok _ ih => exact ih.step e ok

theorem gate_frame (aob : W) {c : Chan} (h : Reading c) : (gate aob c).gp = c.gp ∧
    (gate aob c).ifStop = c.ifStop ∧ (gate aob c).op = c.op := by
  have hn4 : c.chpos ≠ 0x400 := by
    rcases h.2.2.2 with h | h | h | h <;> rw [h] <;> decide
  unfold gate
  rw [if_neg hn4]
  split <;> exact ⟨rfl, rfl, rfl⟩

theorem step_room {i : Nat} {s : Rd} (v : s.Inv) (hn : s.c.ifStop = false → Near s.c.gp) {e : RdEv}
    (ok : e.Ok i s) (hq : e.quiet = true) :
    ((s.step i e).c.ifStop = false → Near (s.step i e).c.gp) ∧
      (s.step i e).taken.length + (s.step i e).c.room = s.taken.length + s.c.room := by
  cases e with
  | cycle n ga gw =>
    obtain ⟨h1, h2, h3, _⟩ := ok
    obtain ⟨r1, r2⟩ := cycled_room (gw := gw) v.ci.op v.ci.cd v.ci.ahd h1 h2 h3 hn
    refine ⟨r1, ?_⟩
    show (s.taken ++ _).length + (cycled i n ga gw s.c).room = _
    rw [List.length_append]
    split at r2 <;> rename_i ha
    · rw [if_pos ha]
      show s.taken.length + 1 + _ = _
      omega
    · rw [if_neg ha]
      show s.taken.length + 0 + _ = _
      omega
  | gate aob =>
    obtain ⟨a, b, c⟩ := gate_frame aob ok
    have e : (gate aob s.c).room = s.c.room := by unfold Chan.room back; rw [a, b, c]
    refine ⟨?_, ?_⟩
    · show (gate aob s.c).ifStop = false → Near (gate aob s.c).gp
      rw [a, b]; exact hn
    · show s.taken.length + (gate aob s.c).room = _
      rw [e]
  | store => exact ⟨hn, rfl⟩
  | count aob => exact nomatch hq
  | stop => exact nomatch hq

/-- **C141** Once the end of the count is in sight, whatever the device and the microprogram do and
when, the bytes accepted and the bytes still to come add up to the same number. -/
theorem C141_count_partial {i : Nat} {s t u : Rd} (b : u.Begin) (r : Rd.Run i u s)
    (hs : s.c.ifStop = false) (hn : Near s.c.gp) (h : Rd.Quiet i s t) :
    t.taken.length + (if t.c.ifStop then 0 else left (back t.c) t.c.gp) =
      s.taken.length + left (back s.c) s.c.gp := by
  have key : (t.c.ifStop = false → Near t.c.gp) ∧
      t.taken.length + t.c.room = s.taken.length + s.c.room := by
    induction h with
    | refl => exact ⟨fun _ => hn, rfl⟩
    | step e q ok hq ih =>
      obtain ⟨a, c⟩ := step_room ((q.run r).inv b.inv) ih.1 ok hq
      exact ⟨a, c.trans ih.2⟩
  have e : s.c.room = left (back s.c) s.c.gp := by
    unfold Chan.room; rw [hs]; rfl
  rw [← e]
  exact key.2

/-- **C141** So the channel never accepts more than the count allows … -/
theorem C141_atmost_partial {i : Nat} {s t u : Rd} (b : u.Begin) (r : Rd.Run i u s)
    (hs : s.c.ifStop = false) (hn : Near s.c.gp) (h : Rd.Quiet i s t) :
    t.taken.length ≤ s.taken.length + left (back s.c) s.c.gp := by
  have := C141_count_partial b r hs hn h; omega

/-- **C141** … and when it stops the device it has accepted exactly that many. -/
theorem C141_exact_partial {i : Nat} {s t u : Rd} (b : u.Begin) (r : Rd.Run i u s)
    (hs : s.c.ifStop = false) (hn : Near s.c.gp) (h : Rd.Quiet i s t) (ht : t.c.ifStop = true) :
    t.taken.length = s.taken.length + left (back s.c) s.c.gp := by
  have := C141_count_partial b r hs hn h
  rw [ht] at this
  exact this

/-- The end position and the number of words left which the last word test finds for a read, as a
function of the position and of the number tested. -/
theorem sight_forw : ∀ gp : B, gp &&& 7 = 0 → ∀ n : Fin 13, 1 ≤ n.val → pos gp + n.val ≤ 12 →
    Near ((gp &&& 0xe7) ||| (((BitVec.ofNat 32 (pos gp + n.val) &&& 3).setWidth 8 <<< 3) |||
        lastForw (BitVec.ofNat 32 (pos gp + n.val) &&& 0xf).toNat)) ∧
      left false ((gp &&& 0xe7) ||| (((BitVec.ofNat 32 (pos gp + n.val) &&& 3).setWidth 8 <<< 3) |||
        lastForw (BitVec.ofNat 32 (pos gp + n.val) &&& 0xf).toNat)) = n.val := by decide +kernel

/-- The last word test, when `n` bytes are left from the current position and they end within three
words: the channel sees exactly `n` bytes to come. -/
theorem sight {c : Chan} (ho : c.op = 4) (hz : c.gp &&& 7 = 0) (n : Nat) (h1 : 1 ≤ n) (h12 : pos c.gp + n ≤ 12) :
    Near (lastWord (BitVec.ofNat 32 (pos c.gp + n)) c).gp ∧
      left (back (lastWord (BitVec.ofNat 32 (pos c.gp + n)) c)) (lastWord (BitVec.ofNat 32 (pos c.gp + n)) c).gp = n := by
  have h := sight_forw c.gp hz ⟨n, by omega⟩ h1 h12
  have hk : ∀ k : Fin 13, BitVec.ofNat 32 k.val &&& 0xfff0#32 = 0 := by decide
  have hf : lastWord (BitVec.ofNat 32 (pos c.gp + n)) c = { c with gp :=
      ((c.gp &&& 0xe7) ||| (((BitVec.ofNat 32 (pos c.gp + n) &&& 3).setWidth 8 <<< 3) |||
        lastForw (BitVec.ofNat 32 (pos c.gp + n) &&& 0xf).toNat)) } := by
    unfold lastWord
    rw [if_neg (fun x => absurd (ho.symm.trans x.1) (by decide)), if_neg (show ¬ (BitVec.ofNat 32 (pos c.gp + n) &&& 65520 ≠ 0) from not_not_intro (hk ⟨pos c.gp + n, by omega⟩)), ho]
    rfl
  rw [hf]
  refine ⟨h.1, ?_⟩
  rw [show back { c with gp := _ } = false from by unfold back; dsimp only; rw [ho]; rfl]
  exact h.2

/-- **C141** A read forward, from the moment at which the microprogram tests the count: with `n`
bytes left from the position of the next byte on (the number tested is counted from the start of the
word), ending within three words, the channel accepts exactly `n` more bytes before it stops the
device, whatever the timing. -/
theorem C141_tested_partial {i : Nat} {s t u : Rd} (b : u.Begin) (n : Nat)
    (r : Rd.Run i u { s with c := lastWord (BitVec.ofNat 32 (pos s.c.gp + n)) s.c }) (ho : s.c.op = 4)
    (hs : s.c.ifStop = false) (hz : s.c.gp &&& 7 = 0) (h1 : 1 ≤ n) (h12 : pos s.c.gp + n ≤ 12)
    (h : Rd.Quiet i { s with c := lastWord (BitVec.ofNat 32 (pos s.c.gp + n)) s.c } t) :
    t.taken.length ≤ s.taken.length + n ∧ (t.c.ifStop = true → t.taken.length = s.taken.length + n) := by
  obtain ⟨a, e⟩ := sight ho hz n h1 h12
  have hs' : (lastWord (BitVec.ofNat 32 (pos s.c.gp + n)) s.c).ifStop = false := by
    obtain ⟨g, hg, _⟩ := lastWord_gp (aob := BitVec.ofNat 32 (pos s.c.gp + n)) (c := s.c) (.inl ho)
    rw [hg]; exact hs
  have x := C141_atmost_partial b r hs' a h
  have y := C141_exact_partial b r hs' a h
  dsimp only at x y
  rw [e] at x y
  exact ⟨x, y⟩

/-- Three bytes of a word and two of the next, tested at the second byte of a word. -/
example : left false (lastWord (BitVec.ofNat 32 (pos 0x20 + 5)) { op := 4, gp := 0x20 }).gp = 5 := by decide

theorem flag_set (f : BitVec 16) (h : (if f &&& 0x2000 = 0 then f ||| 0x40 else f) &&& 0x2000 = 0) :
    (if f &&& 0x2000 = 0 then f ||| 0x40 else f) &&& 0x40 ≠ 0 := by
  split at h
  · rename_i hf
    rw [if_pos hf]
    intro he
    have : ((f ||| 0x40) &&& 0x40).getLsbD 6 = true := by
      rw [BitVec.getLsbD_and, BitVec.getLsbD_or]
      show ((f.getLsbD 6 || true) && true) = true
      simp
    rw [he] at this
    exact absurd this (by decide)
  · contradiction

/-- **C141** A device that offers another byte is told to stop: command out is raised, not service
out, no byte is taken, and the incorrect length indication is set unless the CCW suppresses it. -/
theorem C141_stop {i : Nat} {n : In} {ga gw : Glob} {c : Chan} (hr : Reading (began i ga c))
    (hs : c.ifStop = true) (hi : n.t.srvIn = true) (ho : n.t.oprIn = true) (hx : n.t.staIn = false)
    (ht : n.t.srv = c.tags.srv) (hv : c.tags.srv = false) :
    (cycled i n ga gw c).tags.cmd = true ∧ (cycled i n ga gw c).tags.srv = false ∧
      accepts n c (cycled i n ga gw c) = false ∧ (cycled i n ga gw c).ifStop = true ∧
      ((cycled i n ga gw c).flags &&& 0x2000 = 0 → (cycled i n ga gw c).flags &&& 0x40 ≠ 0) := by
  obtain ⟨z, e, g1, g2, g3, g4, g5, g6, g7⟩ := before_serve (i := i) (n := n) (gw := gw) hr
  have hz : z.tags.srv = false := by
    rw [(g6 (by rw [hi]; simp)).1 hx, hv]
  have es : cycled i n ga gw c = { z with
      tags := { z.tags with cmd := true },
      flags := if z.flags &&& 0x2000 = 0 then z.flags ||| 0x40 else z.flags } := by
    rw [e]; unfold serve
    rw [if_pos (by rw [hi, ho, ht, hv]; rfl), if_pos (g2.trans hs)]
  unfold accepts
  rw [es]
  refine ⟨rfl, hz, ?_, g2.trans hs, flag_set z.flags⟩
  show (_ && _ && _ && z.tags.srv) = false
  rw [hz, Bool.and_false]

/-- **C142** Service out stays up for as long as the device holds service in or status in, and no byte
is taken meanwhile. -/
theorem C142_hold {i : Nat} {n : In} {ga gw : Glob} {c : Chan} (hr : Reading (began i ga c))
    (ht : n.t.srv = c.tags.srv) (hv : c.tags.srv = true) (hi : n.t.srvIn = true ∨ n.t.staIn = true) :
    (cycled i n ga gw c).tags.srv = true ∧ accepts n c (cycled i n ga gw c) = false := by
  obtain ⟨z, e, g1, g2, g3, g4, g5, g6, g7⟩ := before_serve (i := i) (n := n) (gw := gw) hr
  have hc : (n.t.srv && !n.t.srvIn && !n.t.staIn) = false := by
    rcases hi with h | h <;> rw [h] <;> simp
  have es : cycled i n ga gw c = z := by
    rw [e]; unfold serve
    rw [if_neg (by rw [ht, hv]; simp)]
  refine ⟨?_, by unfold accepts; rw [hv]; simp⟩
  rw [es]; exact (g6 hc).2 hv

/-- **C142** When the device has dropped both, service out falls in the same cycle. -/
theorem C142_fall {i : Nat} {n : In} {ga gw : Glob} {c : Chan} (hr : Reading (began i ga c))
    (ht : n.t.srv = c.tags.srv) (hv : c.tags.srv = true) (hi : n.t.srvIn = false)
    (hx : n.t.staIn = false) : (cycled i n ga gw c).tags.srv = false := by
  obtain ⟨z, e, g1, g2, g3, g4, g5, g6, g7⟩ := before_serve (i := i) (n := n) (gw := gw) hr
  have es : cycled i n ga gw c = z := by
    rw [e]; unfold serve
    rw [if_neg (by rw [hi]; simp)]
  rw [es]
  exact g5 (by rw [ht, hv, hi, hx]; rfl)

/-- The device holds service in throughout. -/
def RdEv.held : RdEv → Prop
  | .cycle n _ _ => n.t.srvIn = true
  | _ => True

/-- **C142** However long the device keeps service in up after its byte has been accepted, and
whatever the microprogram does meanwhile, that byte is taken only once. -/
theorem C142_once {i : Nat} {s t : Rd} {es : List RdEv} (hv : s.c.tags.srv = true)
    (hh : ∀ e ∈ es, e.held) (h : s.play i es = some t) :
    t.taken = s.taken ∧ t.c.tags.srv = true := by
  induction es generalizing s with
  | nil =>
    simp only [Rd.play, Option.some.injEq] at h
    subst h; exact ⟨rfl, hv⟩
  | cons e es ih =>
    unfold Rd.play at h
    split at h
    · rename_i ok
      have hs : (s.step i e).taken = s.taken ∧ (s.step i e).c.tags.srv = true := by
        cases e with
        | cycle n ga gw =>
          have := C142_hold (gw := gw) ok.1 ok.2.1 hv (.inl (hh _ (List.mem_cons_self ..)))
          refine ⟨?_, this.1⟩
          show s.taken ++ _ = _
          rw [this.2]; simp
        | gate aob =>
          refine ⟨rfl, ?_⟩
          show (gate aob s.c).tags.srv = true
          unfold gate
          split
          · exact hv
          · split <;> exact hv
        | store => exact ⟨rfl, hv⟩
        | count aob =>
          refine ⟨rfl, ?_⟩
          show (lastWord aob s.c).tags.srv = true
          obtain ⟨g, hg, _⟩ := lastWord_gp (aob := aob) ok.1.1
          rw [hg]; exact hv
        | stop => exact ⟨rfl, hv⟩
      obtain ⟨a, b⟩ := ih hs.2 (fun e he => hh e (List.mem_cons_of_mem _ he)) h
      exact ⟨a.trans hs.1, b⟩
    · contradiction

/-! ### Examples: three bytes of a count of three, and a fourth which is refused -/

/-- From the second byte of a word to its end, the last word of the count. -/
def ctStart : Rd := { c := { op := 4, gp := 0x24, tags := { opr := true } } }

theorem ctStart_begin : ctStart.Begin :=
  ⟨by decide, rfl, rfl, rfl, ⟨rfl, rfl, rfl⟩, rfl, rfl, rfl, rfl, by decide⟩

def ctSeen (o : Option Rd) : Option (List B × Bool × Bool × Bool × BitVec 16) :=
  o.map (fun t => (t.taken, t.c.ifStop, t.c.tags.srv, t.c.tags.cmd, t.c.flags))

example : Near ctStart.c.gp ∧ left (back ctStart.c) ctStart.c.gp = 3 := by decide

theorem C141_example : ctSeen (ctStart.play 0 (sends 1 ++ sends 2 ++ sends 3 ++
    [.cycle ⟨inT true false, 4, false⟩ {} {}])) =
    some ([1, 2, 3], true, false, true, 0x40) := by decide +kernel

/-- Backward from the third byte of a word through the last byte of the word before. -/
example : left true 0x52 = 4 := by decide

theorem C142_example : ctSeen (ctStart.play 0 ([.cycle ⟨inT true false, 4, false⟩ {} {},
    .cycle ⟨inT true true, 5, true⟩ {} {}, .cycle ⟨inT true true, 6, true⟩ {} {}])) =
    some ([4], false, true, false, 0) := by decide +kernel

end Verif.Sel50
