import Verif.Cons.Queue
/-!
# What is typed reaches the CPU (C50, C51, C52)
-/
namespace Verif.Cons
open Verif.Bus
open Verif.Card (Res)

/-! ## Every reachable terminal -/

theorem bind_inv {α β : Type} {x : Res α} {f : α → Res β} {b : β} (h : x.bind f = .ok b) : ∃ a, x = .ok a ∧ f a = .ok b := by
  cases x with
  | ok a => exact ⟨a, rfl, h⟩
  | oob => cases h
  | fuel => cases h

theorem Wf.congr {t t' : T} (w : Wf t) (k2 : t'.inPtr = t.inPtr) (k3 : t'.outPtr = t.outPtr) (k4 : t'.inLen = t.inLen) : Wf t' :=
  ⟨by rw [k2]; exact w.inP, by rw [k3]; exact w.outP, by rw [k4]; exact w.len, by rw [k2, k3, k4]; exact w.ring⟩

theorem pushChar_wf (t : T) (c : Nat) (w : Wf t) (hl : t.inLen < 256) : ∃ t', pushChar t c = .ok t' ∧ Wf t' := by
  cases hf : t.inFlg with
  | true => obtain ⟨t', h1, h2, -⟩ := pushChar_spec t c w hf hl; exact ⟨t', h1, h2⟩
  | false =>
    by_cases h1 : c = 12
    · exact ⟨t, by simp [pushChar, h1], w⟩
    by_cases h2 : c = 27
    · exact ⟨{ t with attn := true }, by simp [pushChar, h2], w.congr rfl rfl rfl⟩
    · exact ⟨t, by simp [pushChar, h1, h2, hf], w⟩

theorem telnet_wf (t : T) (c : Nat) (w : Wf t) (hl : t.inLen < 256) : ∃ t', telnet t c = .ok t' ∧ Wf t' := by
  obtain ⟨t', h1, h2⟩ := pushChar_wf t c w hl
  unfold telnet
  cases t.tns <;> simp only
  · split
    · exact ⟨_, rfl, w.congr rfl rfl rfl⟩
    · exact ⟨t', h1, h2⟩
  · split
    · exact ⟨_, bind_ok h1 rfl, h2.congr rfl rfl rfl⟩
    · repeat' split
      all_goals exact ⟨_, rfl, w.congr rfl rfl rfl⟩
  all_goals exact ⟨_, rfl, w.congr rfl rfl rfl⟩

theorem packetLoop_wf (bs : List Nat) (t : T) (w : Wf t) : ∃ t', packetLoop t bs = .ok t' ∧ Wf t' := by
  induction bs generalizing t with
  | nil => exact ⟨t, rfl, w⟩
  | cons c cs ih =>
    rw [packetLoop]
    split
    · rename_i hl
      obtain ⟨t1, a1, a2⟩ := telnet_wf t c w hl
      obtain ⟨t2, b1, b2⟩ := ih t1 a2
      exact ⟨t2, bind_ok a1 b1, b2⟩
    · exact ⟨t, rfl, w⟩

theorem packet_wf (bs : List Nat) (t : T) (w : Wf t) : ∃ t', packet t bs = .ok t' ∧ Wf t' := by
  unfold packet
  split
  · exact ⟨t, rfl, w⟩
  · split
    · exact ⟨_, rfl, w.congr rfl rfl rfl⟩
    · exact packetLoop_wf _ t w

theorem func_wf (t : T) (tags : Nat) (w : Wf t) : Wf (func t tags).1 := by
  have hclr : Wf (clear t) := ⟨w.inP, w.inP, Nat.zero_le _, by show t.inPtr = (t.inPtr + 0) % 256; have := w.inP; omega⟩
  unfold func signals
  simp only
  repeat' split
  all_goals first | exact w | exact w.congr rfl rfl rfl | exact hclr | exact hclr.congr rfl rfl rfl

theorem out_ok (t : T) (v : Nat) : ∃ e, Xlat.ebcdicToAscii (v % 256) = some e ∧ out t v = .ok { t with outBuf := e, outFlg := true } := by
  have tab : ∀ v : Fin 256, (Xlat.ebcdicToAscii v).isSome := by decide +kernel
  have h1 := tab ⟨v % 256, Nat.mod_lt _ (by decide)⟩
  cases he : Xlat.ebcdicToAscii (v % 256) with
  | none => rw [he] at h1; cases h1
  | some e => exact ⟨e, rfl, by simp [out, he, Card.look, Res.bind]⟩

theorem flush_wf (t : T) (w : Wf t) : Wf (flush t) := by
  unfold flush
  simp only
  repeat' split
  all_goals first | exact w | exact w.congr rfl rfl rfl

theorem connect_wf (t : T) (w : Wf t) : Wf (connect t) := by
  unfold connect
  split
  · exact w
  · exact ⟨(by decide : (0:Nat) < 256), (by decide : (0:Nat) < 256), (by decide : (0:Nat) ≤ 256), (by decide : (0:Nat) = (0 + 0) % 256)⟩

theorem tab_none (c : Nat) (h : 128 ≤ c) : Xlat.asciiToEbcdic c = none := by
  have hl : asciiToEbcdicTab.length = 128 := by decide +kernel
  exact List.getElem?_eq_none (by rw [hl]; exact h)

theorem inp_wf (t : T) (w : Wf t) (hk : t.inFlg = true → 0 < t.inLen → t.key t.outPtr % 256 < 128) : ∃ r, inp t = .ok r ∧ Wf r.1 := by
  unfold inp
  split
  · rename_i h
    rw [if_pos w.outP]
    have hc := hk h.1 h.2
    have tab : ∀ c : Fin 128, (Xlat.asciiToEbcdic c).isSome ∧ (Xlat.asciiToEbcdic c).getD 0 < 256 := by decide +kernel
    obtain ⟨h1, h2⟩ := tab ⟨_, hc⟩
    simp only at h1 h2
    cases he : Xlat.asciiToEbcdic (t.key t.outPtr % 256) with
    | none => rw [he] at h1; cases h1
    | some e =>
      rw [he] at h2
      refine ⟨({ t with outPtr := (t.outPtr + 1) % 256, inLen := t.inLen - 1 }, some (Bus.Spec.byte e)), ?_, w.inP, Nat.mod_lt _ (by decide), ?_, ?_⟩
      · show (withPar e).bind _ = _
        rw [withPar_ok e h2]; rfl
      · show t.inLen - 1 ≤ 256
        have := w.len; omega
      · show t.inPtr = ((t.outPtr + 1) % 256 + (t.inLen - 1)) % 256
        have := w.ring; omega
  · exact ⟨(t, none), rfl, w⟩

/-- The only step that can go wrong is the CPU reading a character above 127. -/
theorem step_wf (t : T) (o : Op) (w : Wf t) :
    (∃ r, step t o = .ok r ∧ Wf r.1) ∨ (o = .read ∧ t.inFlg = true ∧ 0 < t.inLen ∧ 128 ≤ t.key t.outPtr % 256 ∧ step t o = .oob) := by
  cases o with
  | packet bs =>
    obtain ⟨t', h1, h2⟩ := packet_wf bs t w
    exact Or.inl ⟨(t', none), bind_ok h1 rfl, h2⟩
  | read =>
    by_cases hk : t.inFlg = true → 0 < t.inLen → t.key t.outPtr % 256 < 128
    · exact Or.inl (inp_wf t w hk)
    · right
      simp only [Classical.not_imp, Nat.not_lt] at hk
      refine ⟨rfl, hk.1, hk.2.1, hk.2.2, ?_⟩
      simp only [step, inp]
      rw [if_pos ⟨hk.1, hk.2.1⟩, if_pos w.outP, tab_none _ hk.2.2]
      rfl
  | write v =>
    obtain ⟨e, -, h⟩ := out_ok t v
    exact Or.inl ⟨_, bind_ok h rfl, w.congr rfl rfl rfl⟩
  | flush => exact Or.inl ⟨_, rfl, flush_wf t w⟩
  | signal tags => exact Or.inl ⟨_, rfl, func_wf t tags w⟩
  | caller => exact Or.inl ⟨_, rfl, connect_wf t w⟩

theorem run_wf (os : List Op) (t t' : T) (got : List Nat) (w : Wf t) (h : run t os = .ok (t', got)) : Wf t' := by
  induction os generalizing t got with
  | nil => cases h; exact w
  | cons o os ih =>
    rw [run] at h
    obtain ⟨r, h1, h2⟩ := bind_inv h
    obtain ⟨q, h3, h4⟩ := bind_inv h2
    rcases step_wf t o w with ⟨r', h5, h6⟩ | ⟨-, -, -, -, h5⟩
    · rw [h1] at h5
      have : r = r' := Res.ok.inj h5
      subst this
      have h7 := Res.ok.inj h4
      have h8 : q.1 = t' := congrArg Prod.fst h7
      subst h8
      exact ih r.1 q.2 h6 h3
    · rw [h1] at h5; cases h5

theorem run_append (as bs : List Op) (u v : T) (g : List Nat) (h : run u as = .ok (v, g)) :
    run u (as ++ bs) = (run v bs).bind (fun q => .ok (q.1, g ++ q.2)) := by
  induction as generalizing u g with
  | nil =>
    have := Res.ok.inj h
    have e1 : u = v := congrArg Prod.fst this
    have e2 : ([] : List Nat) = g := congrArg Prod.snd this
    subst e1 e2
    show run u bs = _
    cases run u bs <;> rfl
  | cons a as ih =>
    rw [run] at h
    obtain ⟨r, h1, h2⟩ := bind_inv h
    obtain ⟨q, h3, h4⟩ := bind_inv h2
    have h5 := Res.ok.inj h4
    have e1 : q.1 = v := congrArg Prod.fst h5
    have e2 : r.2.toList ++ q.2 = g := congrArg Prod.snd h5
    have := ih r.1 q.2 (by rw [h3, ← e1])
    show (step u a).bind _ = _
    rw [h1]
    show (run r.1 (as ++ bs)).bind _ = _
    rw [this, ← e2]
    cases run v bs with
    | ok x => simp [Res.bind, List.append_assoc]
    | oob => rfl
    | fuel => rfl

theorem init_wf : Wf {} := ⟨by decide, by decide, by decide, by decide⟩

/-- A terminal as some history from power on leaves it. -/
def Spec.Reachable (t : T) : Prop := ∃ os got, run {} os = .ok (t, got)

theorem Spec.Reachable.wf {t : T} (h : Spec.Reachable t) : Wf t := by
  obtain ⟨os, got, h⟩ := h
  exact run_wf os {} t got init_wf h

/-! ## C50 -/

/-- Connected, input enabled, between telnet elements. -/
structure Spec.Enabled (t : T) : Prop where
  reach : Spec.Reachable t
  cons : t.cons = true
  flag : t.inFlg = true
  tns : t.tns = .norm

/-- The characters of the stream the CPU should get. -/
def Spec.typed (ts : List Spec.Tok) : List Nat := (Spec.chars ts).filter (fun c => !Spec.special c)

/-- **C50** (and C51), in every history with characters below 128 in which the 256 places of the buffer suffice: the CPU
gets the characters typed, in order, each once, and those it has not got yet are waiting; however the stream is split into
packets and whatever the CPU and the sending side do in between. -/
theorem C50_fifo_partial (t : T) (os : List Op) (ts : List Spec.Tok) (he : Spec.Enabled t) (h0 : t.inLen = 0)
    (hk : ∀ k ∈ ts, k.Ok) (hs : Spec.received os = Spec.stream ts) (ho : ∀ o ∈ os, Spec.Open o) (hr : Spec.Room t os)
    (ha : ∀ c ∈ Spec.typed ts, c < 128) :
    ∃ t' got, run t os = .ok (t', got) ∧ Spec.Enabled t' ∧ got = ((Spec.typed ts).take got.length).map Spec.ebcdic ∧
      got.length + t'.inLen = (Spec.typed ts).length := by
  have hp : pending t = [] := List.eq_nil_of_length_eq_zero (by rw [pending_length, h0])
  have hfl : filt t.tns (Spec.received os) = (Spec.chars ts, .norm) := by rw [he.tns, hs]; exact filt_stream ts hk
  have hty : pending t ++ kept (filt t.tns (Spec.received os)).1 = Spec.typed ts := by rw [hp, hfl]; rfl
  obtain ⟨t', got, a1, a2, a3, a4, a5, d, a6, a7⟩ := run_spec os t he.reach.wf he.flag he.cons ho hr (by rw [hty]; exact ha)
  rw [hty] at a7
  have hl : got.length = d.length := by rw [a6, List.length_map]
  refine ⟨t', got, a1, ⟨?_, a4, a3, by rw [a5, hfl]⟩, ?_, ?_⟩
  · obtain ⟨os0, got0, h⟩ := he.reach
    exact ⟨os0 ++ os, got0 ++ got, by rw [run_append os0 os {} t got0 h, a1]; rfl⟩
  · rw [hl, ← a7, List.take_left]; exact a6
  · rw [hl, ← a7, List.length_append, pending_length]

/-- A character that waits is delivered by the next read. -/
theorem C50_read_delivers_partial (t : T) (hr : Spec.Reachable t) (hf : t.inFlg = true) (hl : 0 < t.inLen) (hc : t.key t.outPtr % 256 < 128) :
    ∃ t' v, step t .read = .ok (t', some v) ∧ t'.inLen + 1 = t.inLen := by
  have w := hr.wf
  cases hp : pending t with
  | nil => have := pending_length t; rw [hp] at this; simp at this; omega
  | cons c cs =>
    obtain ⟨⟨t', v⟩, h1, h2⟩ := inp_wf t w (fun _ _ => hc)
    unfold inp at h1
    rw [if_pos ⟨hf, hl⟩, if_pos w.outP] at h1
    obtain ⟨e, h3, h4⟩ := bind_inv h1
    obtain ⟨b, h5, h6⟩ := bind_inv h4
    have h7 := Res.ok.inj h6
    refine ⟨{ t with outPtr := (t.outPtr + 1) % 256, inLen := t.inLen - 1 }, b, ?_, by show t.inLen - 1 + 1 = t.inLen; omega⟩
    show inp t = _
    unfold inp
    rw [if_pos ⟨hf, hl⟩, if_pos w.outP, h3]
    show (withPar e).bind _ = _
    rw [h5]; rfl

/-- **C50** fails when the buffer is full: whatever arrives then, also the attention key, is gone. -/
theorem C50_violated_full (t : T) (bs : List Nat) (h : t.inLen = 256) (hb : bs ≠ []) : packet t bs = .ok t := by
  unfold packet
  by_cases hc : t.cons = false
  · rw [if_pos hc]
  · rw [if_neg hc, if_neg hb]
    cases hb2 : bs.take 256 with
    | nil => rfl
    | cons c cs => rw [packetLoop, if_neg (by omega)]

/-! ### The shared counter

`ctx->in_len++` in `push_char` (model1052.c 936) runs in the thread of the socket, `ctx->in_len--` in `model1052_in`
(model1052.c 787) in the thread of the CPU.  `in_len` is a plain `int`: each is a load and a store. -/
namespace Race

inductive Act where
  /-- socket thread loads `in_len` -/
  | loadP
  /-- socket thread stores one more -/
  | storeP
  /-- CPU thread loads `in_len` -/
  | loadC
  /-- CPU thread stores one less -/
  | storeC
deriving DecidableEq, Repr

structure M where
  len : Int
  regP : Int := 0
  regC : Int := 0

def act (m : M) : Act → M
  | .loadP => { m with regP := m.len }
  | .storeP => { m with len := m.regP + 1 }
  | .loadC => { m with regC := m.len }
  | .storeC => { m with len := m.regC - 1 }

def exec (m : M) (l : List Act) : M := l.foldl act m

/-- A schedule: each thread performs its two accesses in order. -/
abbrev Schedule (l : List Act) : Prop :=
  l.filter (fun a => a = .loadP || a = .storeP) = [.loadP, .storeP] ∧ l.filter (fun a => a = .loadC || a = .storeC) = [.loadC, .storeC]

/-- **C50** fails under the two threads: with `n` characters waiting, one being typed while the CPU takes one should leave
`n`. There is a schedule that leaves `n - 1` (a typed character is never delivered), and one that leaves `n + 1` (the CPU
will get an old character again). -/
theorem C50_violated_race (n : Int) :
    (∃ l, Schedule l ∧ (exec ⟨n, 0, 0⟩ l).len = n - 1) ∧ (∃ l, Schedule l ∧ (exec ⟨n, 0, 0⟩ l).len = n + 1) :=
  ⟨⟨[.loadP, .loadC, .storeP, .storeC], by decide, rfl⟩, ⟨[.loadP, .loadC, .storeC, .storeP], by decide, rfl⟩⟩

/-- Without overlap the count is right. -/
example (n : Int) : (exec ⟨n, 0, 0⟩ [.loadP, .storeP, .loadC, .storeC]).len = n := by
  show n + 1 - 1 = n
  omega

end Race

/-! ## C51 -/

theorem read_all (cs : List Nat) (t : T) (w : Wf t) (hf : t.inFlg = true) (hp : pending t = cs) (ha : ∀ c ∈ cs, c < 128) :
    ∃ t', run t (List.replicate cs.length .read) = .ok (t', cs.map Spec.ebcdic) ∧ t'.inLen = 0 := by
  induction cs generalizing t with
  | nil => exact ⟨t, rfl, by rw [← pending_length, hp]; rfl⟩
  | cons c cs ih =>
    obtain ⟨t1, a1, a2, a3, a4, a5, a6⟩ := inp_spec t w hf c cs hp (ha c List.mem_cons_self)
    obtain ⟨t2, b1, b2⟩ := ih t1 a2 a3 a6 (fun c h => ha c (List.mem_cons_of_mem _ h))
    refine ⟨t2, ?_, b2⟩
    show (inp t).bind _ = _
    rw [a1]
    show (run t1 (List.replicate cs.length .read)).bind _ = _
    rw [b1]
    rfl

theorem received_packets (ps : List (List Nat)) : Spec.received (ps.map .packet) = ps.flatten := by
  induction ps with
  | nil => rfl
  | cons p ps ih => simp [Spec.received, ih]

theorem room_packets (ps : List (List Nat)) (t : T) (w : Wf t) (hf : t.inFlg = true) (hc : t.cons = true) (hn : ∀ p ∈ ps, p ≠ [])
    (hl : t.inLen + ps.flatten.length ≤ 256) : Spec.Room t (ps.map .packet) := by
  induction ps generalizing t with
  | nil => trivial
  | cons p ps ih =>
    have hlen : t.inLen + (p.length + ps.flatten.length) ≤ 256 := by simpa using hl
    refine ⟨by show t.inLen + p.length ≤ 256; omega, ?_⟩
    intro r hr
    obtain ⟨t', a1, a2, a3, a4, a5, a6⟩ := packetLoop_spec p t w hf (by omega)
    have hp : packet t p = .ok t' := by
      unfold packet
      rw [if_neg (by simp [hc]), if_neg (hn p List.mem_cons_self), List.take_of_length_le (by omega)]
      exact a1
    have : r = (t', none) := by
      simp only [step] at hr
      rw [hp] at hr
      exact (Res.ok.inj hr).symm
    subst this
    have hfl : ∀ (s : TState) (l : List Nat), (filt s l).1.length ≤ l.length := by
      intro s l
      induction l generalizing s with
      | nil => cases s <;> simp [filt]
      | cons x xs ih2 =>
        cases s <;> simp only [filt] <;> repeat' split
        all_goals
          have h1 := ih2 .norm
          have h2 := ih2 .iac
          have h3 := ih2 .will
          have h4 := ih2 .wont
          have h5 := ih2 .skip
          simp only [List.length_cons]
          omega
    have hk : (kept (filt t.tns p).1).length ≤ p.length := Nat.le_trans (List.length_filter_le _ _) (hfl _ _)
    have hlen' : t'.inLen ≤ t.inLen + p.length := by
      rw [← pending_length t', a6, List.length_append, pending_length]; omega
    exact ih t' a2 a3 (a4.trans hc) (fun p h => hn p (List.mem_cons_of_mem _ h)) (by show t'.inLen + _ ≤ 256; omega)

/-- **C51** for streams of characters, doubled escapes, break and option negotiation of up to 256 bytes: however the
stream is split into packets, exactly the characters reach the CPU. -/
theorem C51_filter_partial (t : T) (ps : List (List Nat)) (ts : List Spec.Tok) (he : Spec.Enabled t) (h0 : t.inLen = 0)
    (hk : ∀ k ∈ ts, k.Ok) (hn : ∀ p ∈ ps, p ≠ []) (hs : ps.flatten = Spec.stream ts) (hl : ps.flatten.length ≤ 256)
    (ha : ∀ c ∈ Spec.typed ts, c < 128) :
    ∃ t', run t (ps.map .packet ++ List.replicate (Spec.typed ts).length .read) = .ok (t', (Spec.typed ts).map Spec.ebcdic) ∧ t'.inLen = 0 := by
  have hp : pending t = [] := List.eq_nil_of_length_eq_zero (by rw [pending_length, h0])
  have hfl : filt t.tns (Spec.received (ps.map .packet)) = (Spec.chars ts, .norm) := by rw [he.tns, received_packets, hs]; exact filt_stream ts hk
  have hty : pending t ++ kept (filt t.tns (Spec.received (ps.map .packet))).1 = Spec.typed ts := by rw [hp, hfl]; rfl
  have hopen : ∀ o ∈ ps.map Op.packet, Spec.Open o := by
    intro o ho
    obtain ⟨p, h1, h2⟩ := List.mem_map.mp ho
    subst h2
    exact hn p h1
  obtain ⟨t', got, a1, a2, a3, a4, a5, d, a6, a7⟩ := run_spec (ps.map .packet) t he.reach.wf he.flag he.cons hopen
    (room_packets ps t he.reach.wf he.flag he.cons hn (by omega)) (by rw [hty]; exact ha)
  rw [hty] at a7
  have hgot : ∀ (qs : List (List Nat)) (u v : T) (g : List Nat), run u (qs.map .packet) = .ok (v, g) → g = [] := by
    intro qs
    induction qs with
    | nil => intro u v g h; exact (congrArg Prod.snd (Res.ok.inj h)).symm
    | cons q qs ih =>
      intro u v g h
      have h' : (step u (.packet q)).bind (fun r => (run r.1 (qs.map .packet)).bind (fun q => .ok (q.1, r.2.toList ++ q.2))) = .ok (v, g) := h
      obtain ⟨r, h1, h2⟩ := bind_inv h'
      obtain ⟨x, h3, h4⟩ := bind_inv h2
      obtain ⟨y, h5, h6⟩ := bind_inv h1
      have e := congrArg Prod.snd (Res.ok.inj h6)
      have e2 := congrArg Prod.snd (Res.ok.inj h4)
      simp only at e e2
      rw [← e2, ← e, ih r.1 x.1 x.2 h3]
      rfl
  have hg := hgot ps t t' got a1
  have hd : d = [] := by
    rw [hg] at a6
    exact List.map_eq_nil_iff.mp a6.symm
  rw [hd, List.nil_append] at a7
  obtain ⟨t2, b1, b2⟩ := read_all (Spec.typed ts) t' a2 a3 a7 ha
  refine ⟨t2, ?_, b2⟩
  rw [run_append _ _ _ _ _ a1, b1, hg]
  rfl

/-- **C51** fails for the telnet commands without an option (240 to 249 but for break): the character typed after one is lost. -/
theorem C51_violated_command (t : T) (c x : Nat) (hs : t.tns = .norm) (hc : t.cons = true) (hl : t.inLen < 256)
    (h : 240 ≤ c ∧ c ≤ 249 ∧ c ≠ 243) : packet t [255, c, x] = .ok t := by
  have h1 : c ≠ 255 := by omega
  have h2 : c ≠ 243 := h.2.2
  have h3 : c ≠ 251 := by omega
  have h4 : c ≠ 252 := by omega
  have : ({ t with cons := true, tns := .norm } : T) = t := by rw [← hs, ← hc]
  simp [packet, packetLoop, telnet, hs, hc, hl, Res.bind, h1, h2, h3, h4]
  exact this

/-- **C51** fails for subnegotiation: what stands between escape-SB-option and escape-SE is taken as typed. -/
theorem C51_violated_subnegotiation (t : T) (o x : Nat) (hr : Spec.Enabled t) (hl : t.inLen + 6 ≤ 256) (hx : x < 255) (hsp : Spec.special x = false) :
    ∃ t', packet t [255, 250, o, x, 255, 240] = .ok t' ∧ t'.inLen = t.inLen + 1 := by
  obtain ⟨t', a1, a2, a3, a4, a5, a6⟩ := packetLoop_spec [255, 250, o, x, 255, 240] t hr.reach.wf hr.flag hl
  refine ⟨t', ?_, ?_⟩
  · unfold packet
    rw [if_neg (by simp [hr.cons]), if_neg (by simp)]
    exact a1
  · rw [← pending_length t', a6, List.length_append, pending_length, hr.tns]
    have : x ≠ 255 := by omega
    simp [filt, this, kept, hsp]

/-! ## C52 -/

/-- **C52**, exactly: from power on, whatever is received and whatever the CPU does, an access outside a table or the
character buffer happens only when the CPU reads a waiting character above 127. -/
theorem C52_only_high_characters_partial (t : T) (o : Op) (hr : Spec.Reachable t) (h : ¬ ∃ r, step t o = .ok r) :
    o = .read ∧ t.inFlg = true ∧ 0 < t.inLen ∧ 128 ≤ t.key t.outPtr % 256 := by
  rcases step_wf t o hr.wf with ⟨r, h1, -⟩ | ⟨h1, h2, h3, h4, -⟩
  · exact absurd ⟨r, h1⟩ h
  · exact ⟨h1, h2, h3, h4⟩

/-- **C52** fails for every character above 127 that can be typed: the read indexes outside the translation table. -/
theorem C52_violated (t : T) (he : Spec.Enabled t) (h0 : t.inLen = 0) (c : Nat) (h1 : 128 ≤ c) (h2 : c < 255) :
    run t [.packet [c], .read] = .oob := by
  obtain ⟨t', a1, a2, a3, a4, a5, a6⟩ := packetLoop_spec [c] t he.reach.wf he.flag (by simp; omega)
  have hp : pending t = [] := List.eq_nil_of_length_eq_zero (by rw [pending_length, h0])
  have hne : c ≠ 255 := by omega
  have hsp : Spec.special c = false := by simp [Spec.special]; omega
  have hpend : pending t' = [c] := by rw [a6, hp, he.tns]; simp [filt, hne, kept, hsp]
  have hl : t'.inLen = 1 := by rw [← pending_length, hpend]; rfl
  have hk : t'.key t'.outPtr = c := by
    have : (pending t')[0]? = some c := by rw [hpend]; rfl
    unfold pending at this
    rw [List.getElem?_map, List.getElem?_range (by omega)] at this
    simpa [Nat.mod_eq_of_lt a2.outP] using this
  have hpk : packet t [c] = .ok t' := by
    unfold packet
    rw [if_neg (by simp [he.cons]), if_neg (by simp)]
    exact a1
  show ((packet t [c]).bind _).bind _ = _
  rw [hpk]
  have hin : inp t' = .oob := by
    unfold inp
    rw [if_pos ⟨a3, by omega⟩, if_pos a2.outP, hk, Nat.mod_eq_of_lt (by omega), tab_none c h1]
    rfl
  show (run t' [.read]).bind _ = _
  simp only [run, step]
  rw [hin]
  rfl

/-! ## The hypotheses can be met -/

/-- A console with a terminal connected and a read command started. -/
def started : T := (func (connect {}) 0x51).1

theorem started_enabled : Spec.Enabled started := ⟨⟨[.caller, .signal 0x51], [], rfl⟩, rfl, rfl, rfl⟩

/-- "HI" typed with negotiation around it, split inside the negotiation, while the CPU reads. -/
example : ∃ t', run started [.packet [255], .packet [253, 1, 72], .read, .read, .packet [73, 13], .flush, .read] = .ok (t', [Spec.ebcdic 72, Spec.ebcdic 73]) ∧ t'.eob = true :=
  ⟨_, rfl, rfl⟩

example : Spec.received [.packet [255], .packet [253, 1, 72], .read, .read, .packet [73, 13], .flush, .read] =
    Spec.stream [.neg 253 1, .data 72, .data 73, .data 13] := rfl

example : Spec.typed [.neg 253 1, .data 72, .data 73, .data 13] = [72, 73] := rfl

example : Spec.ebcdic 72 = 0xc8 := by decide +kernel

/-- A full buffer is reached by typing 256 characters. -/
example : ∃ t', run started ((List.replicate 256 [65]).map .packet) = .ok (t', []) ∧ t'.inLen = 256 := by
  have hflat : (List.replicate 256 [65]).flatten = List.replicate 256 65 := by decide +kernel
  have hn : ∀ p ∈ List.replicate 256 [65], p ≠ [] := by
    intro p hp; rw [(List.mem_replicate.mp hp).2]; simp
  have hfs : ∀ n, filt .norm (List.replicate n 65) = (List.replicate n 65, .norm) := by
    intro n
    induction n with
    | zero => rfl
    | succ n ih => rw [List.replicate_succ]; simp [filt, ih]
  have hkp : ∀ n, kept (List.replicate n 65) = List.replicate n 65 := by
    intro n
    induction n with
    | zero => rfl
    | succ n ih => rw [List.replicate_succ]; unfold kept at ih ⊢; rw [List.filter_cons_of_pos (by decide), ih]
  have hst : started.tns = .norm := rfl
  have hp0 : pending started = [] := rfl
  have hty : pending started ++ kept (filt started.tns (Spec.received ((List.replicate 256 [65]).map .packet))).1 = List.replicate 256 65 := by
    rw [received_packets, hflat, hst, hfs, hkp, hp0]; rfl
  obtain ⟨t', got, a1, a2, a3, a4, a5, d, a6, a7⟩ := run_spec ((List.replicate 256 [65]).map .packet) started started_enabled.reach.wf rfl rfl
    (by
      intro o ho
      obtain ⟨p, h1, h2⟩ := List.mem_map.mp ho
      subst h2
      exact hn p h1)
    (room_packets _ _ started_enabled.reach.wf rfl rfl hn (by rw [hflat, List.length_replicate]; decide))
    (by rw [hty]; intro c hc; rw [(List.mem_replicate.mp hc).2]; decide)
  have hgot : ∀ (n : Nat) (u v : T) (g : List Nat), run u ((List.replicate n [65]).map .packet) = .ok (v, g) → g = [] := by
    intro n
    induction n with
    | zero => intro u v g h; exact (congrArg Prod.snd (Res.ok.inj h)).symm
    | succ n ih =>
      intro u v g h
      have h' : (step u (.packet [65])).bind (fun r => (run r.1 ((List.replicate n [65]).map .packet)).bind (fun q => .ok (q.1, r.2.toList ++ q.2))) = .ok (v, g) := h
      obtain ⟨r, h1, h2⟩ := bind_inv h'
      obtain ⟨x, h3, h4⟩ := bind_inv h2
      obtain ⟨y, h5, h6⟩ := bind_inv h1
      have e := congrArg Prod.snd (Res.ok.inj h6)
      have e2 := congrArg Prod.snd (Res.ok.inj h4)
      simp only at e e2
      rw [← e2, ← e, ih r.1 x.1 x.2 h3]
      rfl
  have hg := hgot 256 _ _ _ a1
  subst hg
  have hd : d = [] := List.map_eq_nil_iff.mp a6.symm
  rw [hd, List.nil_append, hty] at a7
  exact ⟨t', a1, by rw [← pending_length, a7, List.length_replicate]⟩

/-- A letter above 127 stops the console. -/
example : run started [.packet [0xe9], .read] = .oob := C52_violated started started_enabled rfl 0xe9 (by decide) (by decide)

end Verif.Cons
