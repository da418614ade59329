import Verif.Device.Spec
namespace Verif.Device

@[simp] theorem chOf_eq (a : Nat) : chOf a = chanNo a := by
  unfold chOf chanNo
  rw [show (7 : Nat) = 2 ^ 3 - 1 from rfl, Nat.and_two_pow_sub_one_eq_mod, Nat.shiftRight_eq_div_pow]

@[simp] theorem Res.bind_ok {α β} (a : α) (f : α → Res β) : (Res.ok a >>= f) = f a := rfl

def Chain (next : Nat → Option Nat) : Option Nat → List Nat → Prop
  | p, [] => p = none
  | p, d :: ds => p = some d ∧ Chain next (next d) ds

theorem Chain_set {next : Nat → Option Nat} {q v} {l : List Nat} {h} (hq : q ∉ l) (hc : Chain next h l) :
    Chain (setF next q v) h l := by
  induction l generalizing h with
  | nil => exact hc
  | cons d ds ih =>
    simp only [List.mem_cons, not_or] at hq
    refine ⟨hc.1, ?_⟩
    have : setF next q v d = next d := by simp [setF, Ne.symm hq.1]
    rw [this]
    exact ih hq.2 hc.2

theorem walkEnd_spec (s : CSt) (l : List Nat) : ∀ (n d : Nat), Chain s.next (some d) (d :: l) → l.length < n →
    ∃ e, walkEnd s n d = .ok e ∧ (d :: l).getLast? = some e := by
  induction l with
  | nil =>
    intro n d hc hn
    obtain ⟨n, rfl⟩ : ∃ m, n = m + 1 := ⟨n - 1, by simp at hn; omega⟩
    have : s.next d = none := hc.2
    exact ⟨d, by simp [walkEnd, this], rfl⟩
  | cons e es ih =>
    intro n d hc hn
    obtain ⟨n, rfl⟩ : ∃ m, n = m + 1 := ⟨n - 1, by simp at hn; omega⟩
    have h1 : s.next d = some e := hc.2.1
    have h2 : Chain s.next (some e) (e :: es) := by rw [← h1]; exact hc.2
    obtain ⟨x, h3, h4⟩ := ih n e h2 (by simp at hn; omega)
    refine ⟨x, by simp [walkEnd, h1, h3], ?_⟩
    rw [List.getLast?_cons_cons]; exact h4

theorem Chain_append {next : Nat → Option Nat} {l : List Nat} {h e new} (hc : Chain next h l) (hl : l.getLast? = some e)
    (hnd : l.Nodup) (hnew : new ∉ l) (hnn : next new = none) :
    Chain (setF next e (some new)) h (l ++ [new]) := by
  induction l generalizing h with
  | nil => simp at hl
  | cons d ds ih =>
    simp only [List.mem_cons, not_or] at hnew
    simp only [List.nodup_cons] at hnd
    cases ds with
    | nil =>
      simp only [List.getLast?_singleton, Option.some.injEq] at hl
      subst hl
      refine ⟨hc.1, ?_⟩
      simp only [setF, if_true, List.nil_append]
      refine ⟨rfl, ?_⟩
      show setF next d (some new) new = none
      simp [setF, hnew.1, hnn]
    | cons d' ds' =>
      rw [List.getLast?_cons_cons] at hl
      have hed : e ∈ d' :: ds' := List.mem_of_getLast? hl
      have hne : d ≠ e := fun h => hnd.1 (h ▸ hed)
      refine ⟨hc.1, ?_⟩
      have : setF next e (some new) d = next d := by simp [setF, hne]
      rw [this]
      exact ih hc.2 hl hnd.2 hnew.2

theorem findLoop_spec (s : CSt) (addr mask : Nat) (l : List Nat) : ∀ (n : Nat) (h : Option Nat), Chain s.next h l → l.length ≤ n →
    findLoop s addr mask n h = .ok (l.find? fun d => s.addr d &&& mask = addr &&& mask) := by
  induction l with
  | nil =>
    intro n h hc _
    cases hc
    cases n <;> simp [findLoop]
  | cons d ds ih =>
    intro n h hc hn
    obtain ⟨n, rfl⟩ : ∃ m, n = m + 1 := ⟨n - 1, by simp at hn; omega⟩
    have h1 := hc.1
    subst h1
    by_cases hm : s.addr d &&& mask = addr &&& mask
    · simp [findLoop, hm]
    · simp only [findLoop, hm, if_false]
      rw [ih n _ hc.2 (by simp at hn; omega)]
      simp [List.find?_cons, hm]

theorem delLoop_spec (s : CSt) (dev : Nat) (l : List Nat) : ∀ (n d : Nat), Chain s.next (some d) (d :: l) →
    (d :: l).Nodup → d ≠ dev → l.length < n →
    ∃ s', delLoop s dev n d = .ok s' ∧ s' = { s with next := s'.next } ∧
      Chain s'.next (some d) (d :: l.filter (· ≠ dev)) ∧
      (∀ q, q ∉ d :: l → s'.next q = s.next q) := by
  induction l with
  | nil =>
    intro n d hc hnd hne hn
    obtain ⟨n, rfl⟩ : ∃ m, n = m + 1 := ⟨n - 1, by simp at hn; omega⟩
    have : s.next d = none := hc.2
    exact ⟨s, by simp [delLoop, this], rfl, hc, fun _ _ => rfl⟩
  | cons e es ih =>
    intro n d hc hnd hne hn
    obtain ⟨n, rfl⟩ : ∃ m, n = m + 1 := ⟨n - 1, by simp at hn; omega⟩
    have h1 : s.next d = some e := hc.2.1
    have hce : Chain s.next (some e) (e :: es) := by rw [← h1]; exact hc.2
    simp only [List.nodup_cons, List.mem_cons, not_or] at hnd
    by_cases hed : e = dev
    · subst hed
      refine ⟨{ s with next := setF s.next d (s.next e) }, by simp [delLoop, h1], rfl, ?_, ?_⟩
      · have hf : (e :: es).filter (· ≠ e) = es := by
          simp only [ne_eq, List.filter_cons, not_true_eq_false, decide_false, Bool.false_eq_true, if_false]
          rw [List.filter_eq_self]
          intro x hx
          have : x ≠ e := fun h => hnd.2.1 (h ▸ hx)
          simpa using this
        rw [hf]
        refine ⟨rfl, ?_⟩
        simp only [setF, if_true]
        exact Chain_set hnd.1.2 hce.2
      · intro q hq
        simp only [List.mem_cons, not_or] at hq
        simp [setF, hq.1]
    · obtain ⟨s', h2, h3, h4, h5⟩ := ih n e hce (by simp [hnd]) hed (by simp at hn; omega)
      refine ⟨s', by simp [delLoop, h1, hed, h2], h3, ?_, ?_⟩
      · have : s'.next d = s.next d := h5 d (by simp [hnd.1])
        refine ⟨rfl, ?_⟩
        rw [this, h1]
        simpa [List.filter_cons, hed] using h4
      · intro q hq
        exact h5 q (by simp only [List.mem_cons, not_or] at hq ⊢; exact hq.2)

def onCh (r : Reg) (ch : Nat) : List Nat := (r.filter fun x => chanNo x.2 = ch).map Prod.fst

structure CRep (s : CSt) (r : Reg) : Prop where
  chain : ∀ ch, ch < 6 → Chain s.next (s.chan ch) (onCh r ch)
  addr : ∀ x ∈ r, s.addr x.1 = x.2
  nodup : (r.map Prod.fst).Nodup
  len : r.length ≤ s.cnt

theorem onCh_len (r : Reg) (ch : Nat) : (onCh r ch).length ≤ r.length := by
  unfold onCh; rw [List.length_map]; exact List.length_filter_le _ _

theorem onCh_nodup {r : Reg} (h : (r.map Prod.fst).Nodup) (ch : Nat) : (onCh r ch).Nodup := by
  unfold onCh
  exact h.sublist (List.filter_sublist.map _)

theorem mem_onCh {r : Reg} {ch d} : d ∈ onCh r ch ↔ ∃ a, (d, a) ∈ r ∧ chanNo a = ch := by
  unfold onCh
  simp [List.mem_map, List.mem_filter]

theorem addChan_rep {s : CSt} {r : Reg} (h : CRep s r) {d a : Nat} (ha : chanNo a < 6) (hd : ∀ x ∈ r, x.1 ≠ d) :
    ∃ s', addChan s d a = .ok s' ∧ CRep s' (r ++ [(d, a)]) := by
  have hnotin : ∀ ch, d ∉ onCh r ch := by
    intro ch hm
    obtain ⟨a', h1, -⟩ := mem_onCh.1 hm
    exact hd _ h1 rfl
  have hch : ∀ ch, onCh (r ++ [(d, a)]) ch = onCh r ch ++ if chanNo a = ch then [d] else [] := by
    intro ch
    unfold onCh
    rw [List.filter_append, List.map_append]
    congr 1
    by_cases h : chanNo a = ch <;> simp [h]
  have haddr : ∀ x ∈ r ++ [(d, a)], setF s.addr d a x.1 = x.2 := by
    intro x hx
    simp only [List.mem_append, List.mem_singleton] at hx
    rcases hx with hx | rfl
    · simp only [setF, hd x hx, if_false]; exact h.addr x hx
    · simp [setF]
  have hnd : ((r ++ [(d, a)]).map Prod.fst).Nodup := by
    rw [List.map_append, List.nodup_append]
    refine ⟨h.nodup, by simp, ?_⟩
    intro x hx y hy
    simp only [List.map_cons, List.map_nil, List.mem_singleton] at hy
    subst hy
    simp only [List.mem_map] at hx
    obtain ⟨z, hz, rfl⟩ := hx
    exact hd z hz
  have hlen : (r ++ [(d, a)]).length ≤ s.cnt + 1 := by have := h.len; simp; omega
  rcases hc : s.chan (chanNo a) with _ | c
  · refine ⟨_, by simp [addChan, rdChan, ha, hc]; rfl, ?_⟩
    have hempty : onCh r (chanNo a) = [] := by
      have := h.chain _ ha
      rw [hc] at this
      cases hl : onCh r (chanNo a) with
      | nil => rfl
      | cons x xs => rw [hl] at this; simp [Chain] at this
    constructor
    · intro ch hch6
      rw [hch]
      by_cases he : chanNo a = ch
      · subst he
        rw [hempty]
        simp only [if_true, List.nil_append]
        exact ⟨by simp [setF], by show setF s.next d none d = none; simp [setF]⟩
      · rw [if_neg he, List.append_nil]
        have hce : setF s.chan (chanNo a) (some d) ch = s.chan ch := by simp [setF, Ne.symm he]
        show Chain (setF s.next d none) (setF s.chan (chanNo a) (some d) ch) _
        rw [hce]
        exact Chain_set (hnotin ch) (h.chain ch hch6)
    · exact haddr
    · exact hnd
    · exact hlen
  · have hchain := h.chain _ ha
    rw [hc] at hchain
    rcases hl : onCh r (chanNo a) with _ | ⟨x, xs⟩
    · rw [hl] at hchain; simp [Chain] at hchain
    · rw [hl] at hchain
      have hx : c = x := by have := hchain.1; simpa using this
      subst hx
      have hn := hnotin (chanNo a)
      rw [hl] at hn
      have hchain' : Chain (setF s.next d none) (some c) (c :: xs) := Chain_set hn hchain
      have hlen' := onCh_len r (chanNo a)
      rw [hl] at hlen'
      obtain ⟨e, h1, h2⟩ := walkEnd_spec
        { s with addr := setF s.addr d a, next := setF s.next d none, cnt := s.cnt + 1 } xs (s.cnt + 1) c hchain'
        (by have := h.len; simp at hlen'; omega)
      refine ⟨{ s with addr := setF s.addr d a, next := setF (setF s.next d none) e (some d), cnt := s.cnt + 1 }, ?_, ?_⟩
      · simp only [addChan, rdChan, chOf_eq, ha, if_true, hc, Res.bind_ok]
        rw [h1]
        rfl
      · have hnd' := onCh_nodup h.nodup (chanNo a)
        rw [hl] at hnd'
        constructor
        · intro ch hch6
          rw [hch]
          by_cases he : chanNo a = ch
          · subst he
            rw [hl]
            simp only [if_true]
            show Chain _ (s.chan (chanNo a)) _
            rw [hc]
            exact Chain_append hchain' h2 hnd' hn (by simp [setF])
          · rw [if_neg he, List.append_nil]
            have hemem : e ∈ onCh r (chanNo a) := by rw [hl]; exact List.mem_of_getLast? h2
            have hen : e ∉ onCh r ch := by
              intro hm
              obtain ⟨a1, g1, g2⟩ := mem_onCh.1 hm
              obtain ⟨a2, g3, g4⟩ := mem_onCh.1 hemem
              have e1 := h.addr _ g1
              have e2 := h.addr _ g3
              simp only at e1 e2
              rw [e1] at e2
              subst e2
              exact he (g4.symm.trans g2)
            exact Chain_set hen (Chain_set (hnotin ch) (h.chain ch hch6))
        · exact haddr
        · exact hnd
        · exact hlen

theorem findChan_rep {s : CSt} {r : Reg} (h : CRep s r) {a m : Nat} (ha : chanNo a < 6) :
    findChan s a m = .ok (r.find a m) := by
  simp only [findChan, rdChan, chOf_eq, ha, if_true, Res.bind_ok]
  rw [findLoop_spec s a m _ s.cnt _ (h.chain _ ha) (Nat.le_trans (onCh_len r _) h.len)]
  congr 1
  unfold onCh Reg.find
  rw [List.find?_map, List.find?_filter]
  congr 1
  have aux : ∀ l : List (Nat × Nat), (∀ x ∈ l, s.addr x.1 = x.2) →
      l.find? (fun x => decide (chanNo x.2 = chanNo a) && decide (s.addr x.1 &&& m = a &&& m)) =
      l.find? (fun x => decide (chanNo x.2 = chanNo a ∧ x.2 &&& m = a &&& m)) := by
    intro l hl
    induction l with
    | nil => rfl
    | cons x xs ih =>
      have := hl x (by simp)
      simp only [List.find?_cons, this, Bool.decide_and]
      rw [ih (fun y hy => hl y (List.mem_cons_of_mem _ hy))]
      simp only [Bool.decide_and]
  have := aux r h.addr
  simpa using this

theorem delChan_rep {s : CSt} {r : Reg} (h : CRep s r) {d a : Nat} (ha : chanNo a < 6) :
    ∃ s', delChan s d a = .ok s' ∧ CRep s' (r.del d a) := by
  have hch : ∀ ch, onCh (r.del d a) ch = if ch = chanNo a then (onCh r ch).filter (· ≠ d) else onCh r ch := by
    intro ch
    unfold onCh Reg.del
    rw [List.filter_filter]
    split
    · rename_i hce
      subst hce
      rw [List.filter_map, List.filter_filter]
      congr 1
      apply List.filter_congr
      intro x hx
      by_cases h1 : x.1 = d <;> by_cases h2 : chanNo x.2 = chanNo a <;> simp [h1, h2]
    · rename_i hce
      congr 1
      apply List.filter_congr
      intro x hx
      by_cases h2 : chanNo x.2 = ch
      · have : chanNo x.2 ≠ chanNo a := by rw [h2]; exact hce
        simp [this, h2, hce]
      · simp [h2]
  have hsub : ∀ x, x ∈ r.del d a → x ∈ r := fun x hx => (List.mem_filter.1 hx).1
  have hnd : ((r.del d a).map Prod.fst).Nodup := h.nodup.sublist (List.filter_sublist.map _)
  have hlen : (r.del d a).length ≤ s.cnt := Nat.le_trans (List.length_filter_le _ _) h.len
  have hchain := h.chain _ ha
  have hnd' := onCh_nodup h.nodup (chanNo a)
  have hlen' := Nat.le_trans (onCh_len r (chanNo a)) h.len
  rcases hl : onCh r (chanNo a) with _ | ⟨x, xs⟩
  · rw [hl] at hchain
    have hc : s.chan (chanNo a) = none := hchain
    refine ⟨s, by simp [delChan, rdChan, ha, hc], ?_⟩
    constructor
    · intro ch hch6
      rw [hch]
      split
      · rename_i he; subst he; rw [hl]; exact hchain
      · exact h.chain ch hch6
    · exact fun x hx => h.addr x (hsub x hx)
    · exact hnd
    · exact hlen
  · rw [hl] at hchain hnd' hlen'
    have hc : s.chan (chanNo a) = some x := hchain.1
    have hxs : x ∉ xs := (List.nodup_cons.1 hnd').1
    have disj : ∀ ch, ch ≠ chanNo a → ∀ y ∈ onCh r ch, y ∉ x :: xs := by
      intro ch hne y hy hm
      rw [← hl] at hm
      obtain ⟨a1, g1, g2⟩ := mem_onCh.1 hy
      obtain ⟨a2, g3, g4⟩ := mem_onCh.1 hm
      have e1 := h.addr _ g1
      have e2 := h.addr _ g3
      simp only at e1 e2
      rw [e1] at e2
      subst e2
      exact hne (g2.symm.trans g4)
    by_cases hxd : x = d
    · subst hxd
      refine ⟨{ s with chan := setF s.chan (chanNo a) (s.next x) }, by simp [delChan, rdChan, ha, hc], ?_⟩
      constructor
      · intro ch hch6
        rw [hch]
        split
        · rename_i he
          subst he
          rw [hl]
          have hf : (x :: xs).filter (· ≠ x) = xs := by
            simp only [ne_eq, List.filter_cons, not_true_eq_false, decide_false, Bool.false_eq_true, if_false]
            rw [List.filter_eq_self]
            intro y hy
            have : y ≠ x := fun h => hxs (h ▸ hy)
            simpa using this
          rw [hf]
          simp only [setF, if_true]
          exact hchain.2
        · rename_i he
          simp only [setF, he, if_false]
          exact h.chain ch hch6
      · exact fun x hx => h.addr x (hsub x hx)
      · exact hnd
      · exact hlen
    · have hchain2 : Chain s.next (some x) (x :: xs) := by rw [← hc]; exact hchain
      obtain ⟨s', h1, h2, h3, h4⟩ := delLoop_spec s d xs s.cnt x hchain2 hnd' hxd (by simp at hlen'; omega)
      refine ⟨s', by simp [delChan, rdChan, ha, hc, hxd, h1], ?_⟩
      have hfr : ∀ l : List Nat, (∀ y ∈ l, y ∉ x :: xs) → ∀ p, Chain s.next p l → Chain s'.next p l := by
        intro l
        induction l with
        | nil => intro _ p hp; exact hp
        | cons y ys ih =>
          intro hy p hp
          refine ⟨hp.1, ?_⟩
          rw [h4 y (hy y (by simp))]
          exact ih (fun z hz => hy z (List.mem_cons_of_mem _ hz)) _ hp.2
      have hchan : s'.chan = s.chan := by rw [h2]
      have haddr : s'.addr = s.addr := by rw [h2]
      have hcnt : s'.cnt = s.cnt := by rw [h2]
      constructor
      · intro ch hch6
        rw [hch, hchan]
        split
        · rename_i he
          subst he
          rw [hl, hc]
          simpa [List.filter_cons, hxd] using h3
        · rename_i he
          exact hfr _ (disj ch he) _ (h.chain ch hch6)
      · intro x hx; rw [haddr]; exact h.addr x (hsub x hx)
      · exact hnd
      · rw [hcnt]; exact hlen

theorem crun_rep (os : List COp) : ∀ (s : CSt) (r : Reg), CRep s r → PreAll r os →
    ∃ s', crun s os = .ok (s', (specRun r os).2) ∧ CRep s' (specRun r os).1 := by
  induction os with
  | nil => intro s r h _; exact ⟨s, rfl, h⟩
  | cons o os ih =>
    intro s r h hp
    cases o with
    | add d a =>
      obtain ⟨s1, h1, h2⟩ := addChan_rep h hp.1.1 hp.1.2
      obtain ⟨s2, h3, h4⟩ := ih s1 _ h2 hp.2
      refine ⟨s2, ?_, h4⟩
      simp [crun, cstep, h1, h3, specRun, specStep]
    | find a m =>
      have h1 := findChan_rep h (m := m) hp.1
      obtain ⟨s2, h3, h4⟩ := ih s _ h hp.2
      refine ⟨s2, ?_, h4⟩
      simp [crun, cstep, h1, h3, specRun, specStep]
    | del d a =>
      obtain ⟨s1, h1, h2⟩ := delChan_rep h (d := d) hp.1
      obtain ⟨s2, h3, h4⟩ := ih s1 _ h2 hp.2
      refine ⟨s2, ?_, h4⟩
      simp [crun, cstep, h1, h3, specRun, specStep]

theorem cinit_rep : CRep cinit [] := by
  constructor <;> simp [cinit, onCh, Chain]

/-! Disk list -/

def DSeg (h : Nat → Option DNode) : Option Nat → List (Nat × (Nat × Option Nat)) → Prop
  | p, [] => p = none
  | p, x :: xs => p = some x.1 ∧ ∃ nx, h x.1 = some ⟨x.2.1, x.2.2, nx⟩ ∧ DSeg h nx xs

structure DRep (base : Nat) (s : DSt) (r : DReg) : Prop where
  rep : ∃ l : List (Nat × (Nat × Option Nat)), l.map Prod.snd = r ∧ DSeg s.heap s.disk l ∧
    (l.map Prod.fst).Pairwise (fun a b => b < a) ∧ (∀ x ∈ l, base ≤ x.1 ∧ x.1 < s.fresh)
  ge : base ≤ s.fresh

theorem DSeg_set {h : Nat → Option DNode} {q v l p} (hq : q ∉ l.map Prod.fst) (hs : DSeg h p l) : DSeg (setF h q v) p l := by
  induction l generalizing p with
  | nil => exact hs
  | cons x xs ih =>
    simp only [List.map_cons, List.mem_cons, not_or] at hq
    obtain ⟨h1, nx, h2, h3⟩ := hs
    exact ⟨h1, nx, by simp [setF, Ne.symm hq.1, h2], ih hq.2 h3⟩

theorem addDisk_rep {base s r} (h : DRep base s r) (f d) : DRep base (addDisk s f d) ((f, d) :: r) := by
  obtain ⟨⟨l, h1, h2, h3, h4⟩, h5⟩ := h
  refine ⟨⟨(s.fresh, (f, d)) :: l, by simp [h1], ?_, ?_, ?_⟩, by simp [addDisk]; omega⟩
  · refine ⟨rfl, s.disk, by simp [addDisk, setF], ?_⟩
    apply DSeg_set _ h2
    intro hm
    simp only [List.mem_map] at hm
    obtain ⟨x, hx, he⟩ := hm
    have := (h4 x hx).2
    omega
  · simp only [List.map_cons, List.pairwise_cons]
    refine ⟨?_, h3⟩
    intro y hy
    simp only [List.mem_map] at hy
    obtain ⟨x, hx, rfl⟩ := hy
    exact (h4 x hx).2
  · intro x hx
    simp only [List.mem_cons] at hx
    rcases hx with rfl | hx
    · simp [addDisk]; omega
    · have := h4 x hx; simp [addDisk]; omega

theorem DSeg_len {l : List (Nat × (Nat × Option Nat))} : ∀ {n}, (l.map Prod.fst).Pairwise (fun a b => b < a) → (∀ x ∈ l, x.1 < n) → l.length ≤ n := by
  induction l with
  | nil => simp
  | cons x xs ih =>
    intro n h1 h2
    simp only [List.map_cons, List.pairwise_cons] at h1
    have := ih (n := x.1) h1.2 (fun y hy => h1.1 y.1 (List.mem_map_of_mem hy))
    have := h2 x (by simp)
    simp; omega

theorem stepLoop_spec {s : DSt} (l) : ∀ (n : Nat) (p), DSeg s.heap p l → l.length ≤ n → stepLoop s n p = .ok (l.map Prod.snd) := by
  induction l with
  | nil => intro n p h _; cases h; cases n <;> simp [stepLoop]
  | cons x xs ih =>
    intro n p h hn
    obtain ⟨n, rfl⟩ : ∃ m, n = m + 1 := ⟨n - 1, by simp at hn; omega⟩
    obtain ⟨rfl, nx, h2, h3⟩ := h
    simp only [stepLoop, dload, h2, Res.bind_ok]
    rw [ih n nx h3 (by simp at hn; omega)]
    rfl

theorem stepDisk_rep {base s r} (h : DRep base s r) : stepDisk s = .ok r := by
  obtain ⟨⟨l, h1, h2, h3, h4⟩, h5⟩ := h
  unfold stepDisk
  rw [stepLoop_spec l _ _ h2 (DSeg_len h3 (fun x hx => (h4 x hx).2)), h1]

/-- `lseg h p l q`: nodes `l` from `p`, the last one pointing to `q`. -/
def LSeg (h : Nat → Option DNode) : Option Nat → List (Nat × (Nat × Option Nat)) → Option Nat → Prop
  | p, [], z => p = z
  | p, x :: xs, z => p = some x.1 ∧ ∃ nx, h x.1 = some ⟨x.2.1, x.2.2, nx⟩ ∧ LSeg h nx xs z

theorem DSeg_append {h p xs ys} : DSeg h p (xs ++ ys) ↔ ∃ z, LSeg h p xs z ∧ DSeg h z ys := by
  induction xs generalizing p with
  | nil => simp [LSeg]
  | cons x xs ih =>
    simp only [List.cons_append, DSeg, LSeg, ih]
    constructor
    · rintro ⟨a, nx, b, z, c, d⟩; exact ⟨z, ⟨a, nx, b, c⟩, d⟩
    · rintro ⟨z, ⟨a, nx, b, c⟩, d⟩; exact ⟨a, nx, b, z, c, d⟩

theorem LSeg_set {h : Nat → Option DNode} {q v l p z} (hq : q ∉ l.map Prod.fst) (hs : LSeg h p l z) : LSeg (setF h q v) p l z := by
  induction l generalizing p with
  | nil => exact hs
  | cons x xs ih =>
    simp only [List.map_cons, List.mem_cons, not_or] at hq
    obtain ⟨h1, nx, h2, h3⟩ := hs
    exact ⟨h1, nx, by simp [setF, Ne.symm hq.1, h2], ih hq.2 h3⟩

theorem LSeg_snoc {h p xs y z} : LSeg h p (xs ++ [y]) z ↔ LSeg h p xs (some y.1) ∧ h y.1 = some ⟨y.2.1, y.2.2, z⟩ := by
  induction xs generalizing p with
  | nil =>
    simp only [List.nil_append, LSeg]
    constructor
    · rintro ⟨a, nx, b, rfl⟩; exact ⟨a, b⟩
    · rintro ⟨a, b⟩; exact ⟨a, z, b, rfl⟩
  | cons x xs ih =>
    simp only [List.cons_append, LSeg, ih]
    constructor
    · rintro ⟨a, nx, b, c, d⟩; exact ⟨⟨a, nx, b, c⟩, d⟩
    · rintro ⟨⟨a, nx, b, c⟩, d⟩; exact ⟨a, nx, b, c, d⟩

/-- remove the first node of the drive -/
def rmFirst (drive : Option Nat) : List (Nat × (Nat × Option Nat)) → List (Nat × (Nat × Option Nat))
  | [] => []
  | x :: xs => if x.2.2 = drive then xs else x :: rmFirst drive xs

theorem rmFirst_map (drive l) : (rmFirst drive l).map Prod.snd = DReg.del drive (l.map Prod.snd) := by
  induction l with
  | nil => rfl
  | cons x xs ih =>
    simp only [rmFirst, List.map_cons, DReg.del]
    split <;> simp [ih]

theorem rmFirst_sub (drive l) : (rmFirst drive l).Sublist l := by
  induction l with
  | nil => exact List.Sublist.refl _
  | cons x xs ih =>
    simp only [rmFirst]
    split
    · exact List.sublist_cons_self _ _
    · exact ih.cons_cons _

theorem delDiskLoop_spec {drive : Option Nat} (post : List (Nat × (Nat × Option Nat))) :
    ∀ (n : Nat) (s : DSt) (pre : List (Nat × (Nat × Option Nat))) (d : Option Nat) (p : Option Nat),
    LSeg s.heap s.disk pre d → DSeg s.heap d post → p = (pre.map Prod.fst).getLast? →
    ((pre ++ post).map Prod.fst).Nodup → post.length ≤ n →
    ∃ s', delDiskLoop drive n s d p = .ok s' ∧ DSeg s'.heap s'.disk (pre ++ rmFirst drive post) ∧ s'.fresh = s.fresh := by
  induction post with
  | nil =>
    intro n s pre d p h1 h2 h3 h4 h5
    cases h2
    refine ⟨s, by cases n <;> simp [delDiskLoop], ?_, rfl⟩
    exact DSeg_append.2 ⟨none, h1, rfl⟩
  | cons x xs ih =>
    intro n s pre d p h1 h2 h3 h4 h5
    obtain ⟨n, rfl⟩ : ∃ m, n = m + 1 := ⟨n - 1, by simp at h5; omega⟩
    obtain ⟨rfl, nx, h6, h7⟩ := h2
    have hnd := h4
    rw [List.map_append, List.nodup_append] at hnd
    obtain ⟨hn1, hn2, hn3⟩ := hnd
    simp only [List.map_cons, List.nodup_cons] at hn2
    have hxpre : x.1 ∉ pre.map Prod.fst := fun h => hn3 _ h x.1 (by simp) rfl
    simp only [delDiskLoop, dload, h6, Res.bind_ok]
    by_cases hm : x.2.2 = drive
    · simp only [hm, if_true, rmFirst]
      rcases List.eq_nil_or_concat pre with rfl | ⟨pre', q, rfl⟩
      · simp only [List.map_nil, List.getLast?_nil] at h3
        subst h3
        refine ⟨_, rfl, ?_, rfl⟩
        exact DSeg_set hn2.1 h7
      · simp only [List.concat_eq_append] at *
        simp only [List.map_append, List.map_cons, List.map_nil, List.getLast?_append, List.getLast?_singleton, Option.some_or] at h3
        subst h3
        obtain ⟨g1, g2⟩ := LSeg_snoc.1 h1
        simp only [g2, Res.bind_ok]
        refine ⟨_, rfl, ?_, rfl⟩
        simp only [List.map_append, List.map_cons, List.map_nil, List.mem_append, List.mem_singleton, not_or] at hxpre
        have hq : q.1 ∉ pre'.map Prod.fst := by
          rw [List.map_append, List.nodup_append] at hn1
          exact fun h => hn1.2.2 _ h q.1 (by simp) rfl
        have hqxs : q.1 ∉ xs.map Prod.fst := fun h => hn3 q.1 (by simp) q.1 (by simp only [List.map_cons, List.mem_cons]; right; exact h) rfl
        refine DSeg_append.2 ⟨nx, LSeg_snoc.2 ⟨?_, ?_⟩, ?_⟩
        · exact LSeg_set hxpre.1 (LSeg_set hq g1)
        · simp [setF, Ne.symm hxpre.2]
        · exact DSeg_set hn2.1 (DSeg_set hqxs h7)
    · simp only [hm, if_false, rmFirst]
      obtain ⟨s', e1, e2, e3⟩ := ih n s (pre ++ [x]) nx (some x.1) (LSeg_snoc.2 ⟨h1, h6⟩) h7 (by simp)
        (by simpa using h4) (by simp at h5; omega)
      exact ⟨s', e1, by simpa using e2, e3⟩

theorem delDisk_rep {base s r} (h : DRep base s r) {p : Nat} (hp : p < base) :
    ∃ s', delDisk s (some p) = .ok s' ∧ DRep base s' (r.del (some p)) := by
  obtain ⟨⟨l, h1, h2, h3, h4⟩, h5⟩ := h
  have hne : s.disk ≠ some p := by
    cases l with
    | nil => have hd : s.disk = none := h2; rw [hd]; simp
    | cons x xs =>
      have hd : s.disk = some x.1 := h2.1
      have := (h4 x (by simp)).1
      intro hc
      rw [hd] at hc
      simp only [Option.some.injEq] at hc
      omega
  have hnd : (l.map Prod.fst).Nodup := h3.imp (fun h => by omega)
  obtain ⟨s', e1, e2, e3⟩ := delDiskLoop_spec (drive := some p) l s.fresh s [] s.disk none rfl h2 rfl (by simpa using hnd)
    (DSeg_len h3 (fun x hx => (h4 x hx).2))
  refine ⟨s', by unfold delDisk; rw [if_neg hne]; exact e1, ⟨⟨rmFirst (some p) l, ?_, by simpa using e2, ?_, ?_⟩, by omega⟩⟩
  · rw [rmFirst_map, h1]
  · exact h3.sublist ((rmFirst_sub _ _).map _)
  · intro x hx
    rw [e3]
    exact h4 x ((rmFirst_sub _ _).subset hx)

theorem drun_rep {base} (os : List DOp) : ∀ (s : DSt) (r : DReg), DRep base s r → (∀ o ∈ os, o.Pre base) →
    ∃ s', drun s os = .ok (s', (dspec r os).2) ∧ DRep base s' (dspec r os).1 := by
  induction os with
  | nil => intro s r h _; exact ⟨s, rfl, h⟩
  | cons o os ih =>
    intro s r h hp
    have hp' := fun o ho => hp o (List.mem_cons_of_mem _ ho)
    have ho := hp o (by simp)
    cases o with
    | add f d => exact ih _ _ (addDisk_rep h f d) hp'
    | del d =>
      obtain ⟨p, rfl, hpb⟩ := ho
      obtain ⟨s1, e1, r1⟩ := delDisk_rep h hpb
      obtain ⟨s2, e2, r2⟩ := ih _ _ r1 hp'
      exact ⟨s2, by simp only [drun, e1, Res.bind_ok, e2, dspec], r2⟩
    | step =>
      obtain ⟨s2, e2, r2⟩ := ih _ _ h hp'
      exact ⟨s2, by simp only [drun, stepDisk_rep h, Res.bind_ok, e2, dspec], r2⟩

theorem dinit_rep (base) : DRep base (dinit base) [] :=
  ⟨⟨[], rfl, rfl, by simp, by simp⟩, by simp [dinit]⟩

end Verif.Device
