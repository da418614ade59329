import Verif.Lpr.Decode
/-!
# What the 1443 does to the lines of the interface (C99)
-/
namespace Verif.Lpr
open Verif.Bus
open Verif.Card (Res)

/-- The channel's lines are left alone and bus in has odd parity. -/
abbrev Clean (t : Tags) (bi : Nat) (r : Io) : Prop := Bus.Spec.outKept t r.2.1 ∧ (r.2.2 = bi ∨ Bus.Spec.goodParity r.2.2)

theorem kept_refl (t : Tags) : Bus.Spec.outKept t t := ⟨rfl, rfl, rfl, rfl, rfl, rfl, id⟩

/-- `t'` differs from `t` in its in lines, and select out may be down. -/
theorem kept_of {t t' : Tags} (h : t'.adr = t.adr ∧ t'.cmd = t.cmd ∧ t'.srv = t.srv ∧ t'.sup = t.sup ∧ t'.hld = t.hld ∧ t'.opr = t.opr) (h' : t'.sel = true → t.sel = true) : Bus.Spec.outKept t t' :=
  ⟨h.1, h.2.1, h.2.2.1, h.2.2.2.1, h.2.2.2.2.1, h.2.2.2.2.2, h'⟩

theorem status_good {v b : Nat} (hv : v < 256) (e : withPar v = .ok b) : Bus.Spec.goodParity b := by
  rw [withPar_ok v hv] at e
  have := Res.ok.inj e
  subst this
  exact byte_good v hv

section
variable {s : S} {t : Tags} {bo bi : Nat} {r : Io}

theorem idle_clean : Clean t bi (idle s t bo bi) := by
  unfold idle select
  split
  · exact ⟨⟨rfl, rfl, rfl, rfl, rfl, rfl, (fun q => nomatch q)⟩, Or.inl rfl⟩
  · exact ⟨kept_refl t, Or.inl rfl⟩

theorem sel_clean (e : sel s t bo bi = .ok r) : Clean t bi r := by
  unfold sel at e
  simp only at e
  have hk : Bus.Spec.outKept t (if (s.addressed || s.selected) = true then ({ t with sel := false, oprIn := true } : Tags) else t) := by
    split
    · exact ⟨rfl, rfl, rfl, rfl, rfl, rfl, (fun q => nomatch q)⟩
    · exact kept_refl t
  generalize (if (s.addressed || s.selected) = true then ({ t with sel := false, oprIn := true } : Tags) else t) = t1 at e hk
  obtain ⟨k1, k2, k3, k4, k5, k6, k7⟩ := hk
  split at e
  · have := Res.ok.inj e; subst this; exact ⟨⟨k1, k2, k3, k4, k5, k6, k7⟩, Or.inr (bytePar_good _)⟩
  split at e
  · have := Res.ok.inj e; subst this; exact ⟨⟨k1, k2, k3, k4, k5, k6, k7⟩, Or.inr (bytePar_good _)⟩
  split at e
  · have := Res.ok.inj e; subst this; exact ⟨⟨k1, k2, k3, k4, k5, k6, (fun q => nomatch q)⟩, Or.inl rfl⟩
  split at e
  · obtain ⟨s', -, e⟩ := bind_inv e
    have := Res.ok.inj e; subst this; exact ⟨⟨k1, k2, k3, k4, k5, k6, k7⟩, Or.inl rfl⟩
  · have := Res.ok.inj e; subst this; exact ⟨⟨k1, k2, k3, k4, k5, k6, k7⟩, Or.inl rfl⟩

theorem cmdSt_clean (h : s.status < 256) (e : cmdSt s t bi = .ok r) : Clean t bi r := by
  unfold cmdSt at e
  simp only at e
  split at e
  · split at e
    · have := Res.ok.inj e; subst this; exact ⟨⟨rfl, rfl, rfl, rfl, rfl, rfl, (fun q => nomatch q)⟩, Or.inl rfl⟩
    split at e
    · have := Res.ok.inj e; subst this; exact ⟨⟨rfl, rfl, rfl, rfl, rfl, rfl, (fun q => nomatch q)⟩, Or.inl rfl⟩
    · obtain ⟨b, hb, e⟩ := bind_inv e
      have := status_good h hb
      split at e
      · have q := Res.ok.inj e; subst q; exact ⟨⟨rfl, rfl, rfl, rfl, rfl, rfl, (fun q => nomatch q)⟩, Or.inr this⟩
      · have q := Res.ok.inj e; subst q; exact ⟨⟨rfl, rfl, rfl, rfl, rfl, rfl, (fun q => nomatch q)⟩, Or.inr this⟩
  · have := Res.ok.inj e; subst this; exact ⟨kept_refl t, Or.inl rfl⟩

theorem initStat_clean : Clean t bi (initStat s t bi) := by
  unfold initStat
  simp only
  repeat' split
  all_goals first
    | exact ⟨kept_refl t, Or.inl rfl⟩
    | exact ⟨⟨rfl, rfl, rfl, rfl, rfl, rfl, (fun q => nomatch q)⟩, Or.inl rfl⟩

theorem opr_clean (e : opr s t bo bi = .ok r) : Clean t bi r := by
  unfold opr at e
  simp only at e
  have hk : Bus.Spec.outKept t (if s.selected = true then ({ t with sel := false } : Tags) else t) := by
    split
    · exact ⟨rfl, rfl, rfl, rfl, rfl, rfl, (fun q => nomatch q)⟩
    · exact kept_refl t
  generalize (if s.selected = true then ({ t with sel := false } : Tags) else t) = t1 at e hk
  obtain ⟨k1, k2, k3, k4, k5, k6, k7⟩ := hk
  split at e
  · have := Res.ok.inj e; subst this; exact ⟨⟨k1, k2, k3, k4, k5, k6, (fun q => nomatch q)⟩, Or.inr (by show Bus.Spec.goodParity sBusy; decide)⟩
  split at e
  · have := Res.ok.inj e; subst this; exact ⟨⟨k1, k2, k3, k4, k5, k6, k7⟩, Or.inl rfl⟩
  split at e
  · have := Res.ok.inj e; subst this; exact ⟨⟨k1, k2, k3, k4, k5, k6, k7⟩, Or.inr (by show Bus.Spec.goodParity sBusy; decide)⟩
  split at e
  · have := Res.ok.inj e; subst this; exact ⟨⟨k1, k2, k3, k4, k5, k6, k7⟩, Or.inl rfl⟩
  unfold oprData at e
  split at e
  · have := Res.ok.inj e; subst this; exact ⟨⟨k1, k2, k3, k4, k5, k6, k7⟩, Or.inl rfl⟩
  split at e
  · obtain ⟨s', -, e⟩ := bind_inv e
    have := Res.ok.inj e; subst this; exact ⟨⟨k1, k2, k3, k4, k5, k6, k7⟩, Or.inl rfl⟩
  · have := Res.ok.inj e; subst this; exact ⟨⟨k1, k2, k3, k4, k5, k6, k7⟩, Or.inl rfl⟩

theorem req_clean : Clean t bi (req s t bi) := by
  unfold req
  repeat' split
  all_goals first
    | exact ⟨⟨rfl, rfl, rfl, rfl, rfl, rfl, id⟩, Or.inl rfl⟩
    | exact ⟨⟨rfl, rfl, rfl, rfl, rfl, rfl, (fun q => nomatch q)⟩, Or.inl rfl⟩
    | exact ⟨⟨rfl, rfl, rfl, rfl, rfl, rfl, (fun q => nomatch q)⟩, Or.inr (bytePar_good _)⟩

theorem dataI_clean (e : dataI s t bo bi = .ok r) : Clean t bi r := by
  unfold dataI at e
  split at e
  · have := Res.ok.inj e; subst this; exact ⟨kept_refl t, Or.inl rfl⟩
  simp only at e
  split at e
  · unfold take at e
    simp only at e
    split at e
    · have := Res.ok.inj e; subst this; exact ⟨⟨rfl, rfl, rfl, rfl, rfl, rfl, (fun q => nomatch q)⟩, Or.inl rfl⟩
    split at e
    · have := Res.ok.inj e; subst this
      refine ⟨?_, Or.inl rfl⟩
      show Bus.Spec.outKept t (if s.cnt + 1 = 3 then _ else _ : S × Tags).2
      split
      · exact ⟨rfl, rfl, rfl, rfl, rfl, rfl, (fun q => nomatch q)⟩
      · exact ⟨rfl, rfl, rfl, rfl, rfl, rfl, (fun q => nomatch q)⟩
    · cases e
  split at e
  · have := Res.ok.inj e; subst this; exact ⟨⟨rfl, rfl, rfl, rfl, rfl, rfl, (fun q => nomatch q)⟩, Or.inl rfl⟩
  · have := Res.ok.inj e; subst this; exact ⟨⟨rfl, rfl, rfl, rfl, rfl, rfl, (fun q => nomatch q)⟩, Or.inl rfl⟩

theorem dataO_clean (e : dataO s t bi = .ok r) : Clean t bi r := by
  unfold dataO at e
  split at e
  · have := Res.ok.inj e; subst this; exact ⟨kept_refl t, Or.inl rfl⟩
  obtain ⟨b, hb, e⟩ := bind_inv e
  have hg : Bus.Spec.goodParity b := by
    rcases Nat.lt_or_ge s.data 256 with q | q
    · exact status_good q hb
    · rw [withPar_oob _ q] at hb; cases hb
  have := Res.ok.inj e; subst this
  refine ⟨?_, Or.inr hg⟩
  simp only
  split
  · exact ⟨rfl, rfl, rfl, rfl, rfl, rfl, (fun q => nomatch q)⟩
  · exact ⟨rfl, rfl, rfl, rfl, rfl, rfl, (fun q => nomatch q)⟩

theorem dataEnd_clean (h : s.status < 256) (e : dataEnd s t bi = .ok r) : Clean t bi r := by
  unfold dataEnd at e
  split at e
  · have := Res.ok.inj e; subst this; exact ⟨kept_refl t, Or.inl rfl⟩
  obtain ⟨b, hb, e⟩ := bind_inv e
  have hg := status_good h hb
  simp only at e
  split at e
  · have := Res.ok.inj e; subst this; exact ⟨⟨rfl, rfl, rfl, rfl, rfl, rfl, (fun q => nomatch q)⟩, Or.inr hg⟩
  split at e
  · have := Res.ok.inj e; subst this; exact ⟨⟨rfl, rfl, rfl, rfl, rfl, rfl, (fun q => nomatch q)⟩, Or.inr hg⟩
  · have := Res.ok.inj e; subst this; exact ⟨⟨rfl, rfl, rfl, rfl, rfl, rfl, (fun q => nomatch q)⟩, Or.inr hg⟩

theorem endSt_clean (h : s.status < 256) (e : endSt s t bi = .ok r) : Clean t bi r := by
  unfold endSt at e
  split at e
  · have := Res.ok.inj e; subst this; exact ⟨kept_refl t, Or.inl rfl⟩
  simp only at e
  split at e
  · have := Res.ok.inj e; subst this; exact ⟨⟨rfl, rfl, rfl, rfl, rfl, rfl, (fun q => nomatch q)⟩, Or.inl rfl⟩
  have h1 : (if s.busyFlag = true then ({ s with status := s.status ||| sCtlEnd } : S) else s).status < 256 := by
    split
    · exact or8 h (by decide)
    · exact h
  generalize (if s.busyFlag = true then ({ s with status := s.status ||| sCtlEnd } : S) else s) = s1 at e h1
  obtain ⟨b, hb, e⟩ := bind_inv e
  have hg := status_good h1 hb
  split at e
  · have := Res.ok.inj e; subst this; exact ⟨⟨rfl, rfl, rfl, rfl, rfl, rfl, (fun q => nomatch q)⟩, Or.inr hg⟩
  split at e
  · have := Res.ok.inj e; subst this; exact ⟨⟨rfl, rfl, rfl, rfl, rfl, rfl, (fun q => nomatch q)⟩, Or.inr hg⟩
  split at e
  · have := Res.ok.inj e; subst this; exact ⟨⟨rfl, rfl, rfl, rfl, rfl, rfl, (fun q => nomatch q)⟩, Or.inr hg⟩
  · have := Res.ok.inj e; subst this; exact ⟨⟨rfl, rfl, rfl, rfl, rfl, rfl, (fun q => nomatch q)⟩, Or.inr hg⟩

theorem stack_clean : Clean t bi (stack s t bo bi) := by
  unfold stack select
  refine ⟨?_, Or.inl rfl⟩
  show Bus.Spec.outKept t (if isSelect t = true ∧ bo % 256 = s.addr then _ else _ : S × Tags).2
  split
  · exact ⟨rfl, rfl, rfl, rfl, rfl, rfl, (fun q => nomatch q)⟩
  · exact kept_refl t

theorem stackSel_clean : Clean t bi (stackSel s t bo bi) := by
  unfold stackSel
  simp only
  have hk : Bus.Spec.outKept t (if (s.addressed || s.selected) = true then ({ t with sel := false, oprIn := true } : Tags) else t) := by
    split
    · exact ⟨rfl, rfl, rfl, rfl, rfl, rfl, (fun q => nomatch q)⟩
    · exact kept_refl t
  generalize (if (s.addressed || s.selected) = true then ({ t with sel := false, oprIn := true } : Tags) else t) = t1 at hk
  obtain ⟨k1, k2, k3, k4, k5, k6, k7⟩ := hk
  split
  · exact ⟨⟨k1, k2, k3, k4, k5, k6, k7⟩, Or.inr (bytePar_good _)⟩
  split
  · split
    · exact ⟨⟨k1, k2, k3, k4, k5, k6, (fun q => nomatch q)⟩, Or.inr (bytePar_good _)⟩
    · exact ⟨⟨k1, k2, k3, k4, k5, k6, k7⟩, Or.inr (bytePar_good _)⟩
  · exact ⟨⟨k1, k2, k3, k4, k5, k6, k7⟩, Or.inl rfl⟩

theorem stackCmd_clean (h : s.status < 256) (e : stackCmd s t = .ok r) : Clean t bi r := by
  obtain ⟨b, hb, e⟩ := bind_inv e
  have := Res.ok.inj e; subst this; exact ⟨⟨rfl, rfl, rfl, rfl, rfl, rfl, (fun q => nomatch q)⟩, Or.inr (status_good h hb)⟩

theorem stackSta_clean (h : s.status < 256) (e : stackSta s t = .ok r) : Clean t bi r := by
  obtain ⟨b, hb, e⟩ := bind_inv e
  simp only at e
  split at e
  · have := Res.ok.inj e; subst this; exact ⟨⟨rfl, rfl, rfl, rfl, rfl, rfl, (fun q => nomatch q)⟩, Or.inr (status_good h hb)⟩
  · have := Res.ok.inj e; subst this; exact ⟨⟨rfl, rfl, rfl, rfl, rfl, rfl, (fun q => nomatch q)⟩, Or.inr (status_good h hb)⟩

theorem stackHld_clean : Clean t bi (stackHld s t bi) := by
  unfold stackHld
  simp only
  split
  · exact ⟨⟨rfl, rfl, rfl, rfl, rfl, rfl, (fun q => nomatch q)⟩, Or.inl rfl⟩
  · exact ⟨⟨rfl, rfl, rfl, rfl, rfl, rfl, (fun q => nomatch q)⟩, Or.inl rfl⟩

theorem wait_clean : Clean t bi (wait s t bo bi) := by
  have k : Clean t bi (waitBusy s t bo bi) := by
    unfold waitBusy
    simp only
    generalize (if s.selected = false ∧ (t = { opr := true, sel := true, hld := true, adr := true } ∨ t = { opr := true, sel := true, hld := true, sup := true, adr := true }) ∧ bo % 256 = s.addr
      then ({ s with busyFlag := true, addressed := true } : S) else s) = s1
    split
    · split
      · exact ⟨⟨rfl, rfl, rfl, rfl, rfl, rfl, (fun q => nomatch q)⟩, Or.inr (by show Bus.Spec.goodParity (0x100 ||| sSms ||| sBusy); decide)⟩
      · exact ⟨⟨rfl, rfl, rfl, rfl, rfl, rfl, (fun q => nomatch q)⟩, Or.inr (by show Bus.Spec.goodParity (0x100 ||| sSms ||| sBusy); decide)⟩
    · exact ⟨kept_refl t, Or.inl rfl⟩
  exact k

/-- **C99** (part): whatever state the printer is in and whatever the channel does, a call of the bus function leaves the
channel's own lines alone, except that select out may be taken, and what it puts on bus in has odd parity.  Missing: who may
drive the lines, see `C99_violated_owner`. -/
theorem C99_lines_partial (hR : Spec.Reachable s) (e : dev s t bo bi = .ok r) : Bus.Spec.outKept t r.2.1 ∧ (r.2.2 = bi ∨ Bus.Spec.goodParity r.2.2) := by
  have h := hR.inv.status
  unfold dev at e
  split at e
  · have := Res.ok.inj e; subst this
    obtain ⟨s', t', e', -, -, -, -, -, -, -, -, -, -, -, k⟩ := C100_reset_partial s hR t bo bi ‹_›
    unfold dev at e'
    rw [if_pos ‹_›] at e'
    have q := Res.ok.inj e'
    rw [q]
    exact ⟨k, Or.inl rfl⟩
  · cases hs : s.st <;> simp only [hs] at e
    · have := Res.ok.inj e; subst this; exact idle_clean
    · exact sel_clean e
    · exact cmdSt_clean h e
    · have := Res.ok.inj e; subst this; exact initStat_clean
    · exact opr_clean e
    · have := Res.ok.inj e; subst this; exact req_clean
    · exact dataO_clean e
    · exact dataI_clean e
    · exact dataEnd_clean h e
    · exact endSt_clean h e
    · have := Res.ok.inj e; subst this; exact stack_clean
    · have := Res.ok.inj e; subst this; exact stackSel_clean
    · exact stackCmd_clean h e
    · exact stackSta_clean h e
    · have := Res.ok.inj e; subst this; exact stackHld_clean
    · have := Res.ok.inj e; subst this; exact wait_clean

end

/-- **C99** (part): a printer at rest that is not selected by its own address does nothing at all. -/
theorem C99_silent_partial (s : S) (t : Tags) (bo bi : Nat) (hs : Spec.AtRest s) (ht : t.opr = true ∨ t.sup = true)
    (hn : ¬ (t.opr = true ∧ t.sel = true ∧ t.hld = true ∧ t.adr = true ∧ t.oprIn = false ∧ bo % 256 = s.addr)) : dev s t bo bi = .ok (s, t, bi) := by
  unfold dev
  rw [if_neg (by rintro ⟨q1, q2⟩; rcases ht with q | q <;> simp_all)]
  simp only [hs.st, idle]
  rw [if_neg]
  rintro ⟨q, qa⟩
  apply hn
  simp only [isSelect, Bool.or_eq_true, beq_iff_eq] at q
  rcases q with ((q | q) | q) | q <;> subst q <;> exact ⟨rfl, rfl, rfl, rfl, rfl, qa⟩

/-- **C99**, violated: a printer between two groups of bytes that is selected for another command answers busy, and later,
with select out down and nobody selecting it, raises operational in and address in, taking the interface from whoever has it. -/
theorem C99_violated_owner (s : S) (bi : Nat) (ha : s.addr < 256) (h1 : s.st = .opr) (h2 : s.selected = false) (h3 : s.dataRdy = true) (h4 : tst s.cmd 1 = true) :
    ∃ L1 L2 L3 L4 L5, Bus.Spec.poll dev ⟨s, Bus.Spec.rest, bi⟩ (fun t => { t with sel := true, hld := true, adr := true }) (Bus.Spec.byte s.addr) = .ok L1 ∧ L1.t.staIn = true ∧ L1.bi = 0x10 ∧
      Bus.Spec.poll dev L1 (fun t => { t with adr := false }) 0 = .ok L2 ∧ Bus.Spec.inDown L2.t ∧
      Bus.Spec.poll dev L2 (fun t => { t with hld := false }) 0 = .ok L3 ∧ Bus.Spec.poll dev L3 id 0 = .ok L4 ∧ L4.t = Bus.Spec.rest ∧
      Bus.Spec.poll dev L4 id 0 = .ok L5 ∧ L5.t = { Bus.Spec.rest with oprIn := true, adrIn := true } := by
  have hm := byte_mod s.addr ha
  have e1 : dev s { opr := true, sel := true, hld := true, adr := true } (Bus.Spec.byte s.addr) bi = .ok ({ s with selected := true, addressed := true }, { opr := true, hld := true, adr := true, staIn := true }, sBusy) := by
    unfold dev
    rw [if_neg (by simp)]
    simp [h1, opr, h2, hm]
  have e2 : dev { s with selected := true, addressed := true } { opr := true, hld := true, staIn := true } 0 sBusy = .ok ({ s with selected := false, addressed := true }, { opr := true, hld := true }, sBusy) := by
    unfold dev
    rw [if_neg (by simp)]
    simp [h1, opr]
  have e3 : dev { s with selected := false, addressed := true } { opr := true } 0 sBusy = .ok ({ s with selected := false, addressed := true, st := .dataI }, { opr := true }, sBusy) := by
    unfold dev
    rw [if_neg (by simp)]
    simp [h1, opr, oprData, h3, h4]
  have e4 : dev { s with selected := false, addressed := true, st := .dataI } { opr := true } 0 sBusy = .ok ({ s with selected := false, addressed := true, st := .req }, { opr := true }, sBusy) := by
    unfold dev
    rw [if_neg (by simp)]
    simp [dataI]
  have e5 : dev { s with selected := false, addressed := true, st := .req } { opr := true } 0 sBusy = .ok ({ s with selected := false, addressed := true, st := .req, request := false }, { opr := true, oprIn := true, adrIn := true }, bytePar s.addr) := by
    unfold dev
    rw [if_neg (by simp)]
    simp [req]
  exact ⟨_, _, _, _, _, poll_ok (by exact e1), rfl, rfl, poll_ok (by exact e2), ⟨rfl, rfl, rfl, rfl⟩, poll_ok (by exact e3), poll_ok (by exact e4), rfl, poll_ok (by exact e5), rfl⟩

/-- A write of three bytes. -/
def exThree : List Op :=
  exSelect 1 ++ [.bus { opr := true, hld := true, oprIn := true } 0 0, .bus { opr := true, hld := true, oprIn := true, staIn := true, srv := true } 0 0] ++
  (List.replicate 3 [.bus { opr := true, hld := true, oprIn := true } 0 0, .bus { opr := true, hld := true, oprIn := true } 0 0,
   .bus { opr := true, hld := true, oprIn := true, srvIn := true, srv := true } (Bus.Spec.byte 0xc1) 0]).flatten ++ [.bus { opr := true } 0 0]

def betweenAt : Res S → Bool
  | .ok s => decide (s.st = .opr) && decide (s.selected = false) && decide (s.dataRdy = true) && tst s.cmd 1 && decide (s.addr < 256)
  | _ => false

/-- The situation comes up. -/
theorem C99_reachable : ∃ s, Spec.Reachable s ∧ s.addr < 256 ∧ s.st = .opr ∧ s.selected = false ∧ s.dataRdy = true ∧ tst s.cmd 1 = true := by
  have h : betweenAt (run (create 0x0e (some []) true) exThree) = true := by decide +kernel
  cases e : run (create 0x0e (some []) true) exThree with
  | ok s =>
    rw [e] at h
    simp only [betweenAt, Bool.and_eq_true, decide_eq_true_eq] at h
    obtain ⟨⟨⟨⟨h1, h2⟩, h3⟩, h4⟩, h5⟩ := h
    exact ⟨s, ⟨_, _, _, _, e⟩, h5, h1, h2, h3, h4⟩
  | oob => rw [e] at h; cases h
  | fuel => rw [e] at h; cases h

end Verif.Lpr
