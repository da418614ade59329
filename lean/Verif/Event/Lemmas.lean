import Verif.Event.Trace
/- Bridging lemmas for the property theorems. -/
namespace Verif.Event

/-- `s` represents a good quiescent abstract state. -/
def Good {W} (s : St W) : Prop :=
  ∃ a : Abs W, Rep s a ∧ AInv a ∧ a.busy = false ∧ ∀ x ∈ a.items, (a.now : Int) < x.due

theorem aExec_not_bug {W} (cb : Ev → W → Prog W) (hcb : ∀ e w, (cb e w).SchedOnly) (n : Nat) :
    ∀ (a : Abs W) (p : Prog W), p.SchedOnly → aExec cb n a p ≠ .bug := by
  induction n with
  | zero => intro a p _ h; simp [aExec] at h
  | succ n ih =>
    intro a p hp h
    cases p with
    | ret w => simp [aExec] at h
    | sched w e t k =>
      simp only [aExec] at h
      split at h
      · rcases h1 : aExec cb n { a with w := w, log := (a.now, .imm e) :: a.log } (cb e w) with a1 | _ | _
        · rw [h1] at h; exact ih _ _ (hp.2 _) h
        · exact ih _ _ (hcb e w) h1
        · rw [h1] at h; cases h
      · split at h
        · have := hp.1; omega
        · exact ih _ _ (hp.2 _) h
    | cancel w dev func k => exact hp.elim

theorem aAdvLoop_not_bug {W} (cb : Ev → W → Prog W) (hcb : ∀ e w, (cb e w).SchedOnly) (n : Nat) :
    ∀ (a : Abs W), aAdvLoop cb n a ≠ .bug := by
  induction n with
  | zero => intro a h; simp [aAdvLoop] at h
  | succ n ih =>
    intro a h
    unfold aAdvLoop at h
    split at h
    · cases h
    · rename_i x xs hx
      split at h
      · rcases h1 : aExec cb n { a with log := (a.now, .fire x.id x.ev) :: a.log, busy := true } (cb x.ev a.w) with a1 | _ | _
        · rw [h1] at h; exact ih _ h
        · exact aExec_not_bug cb hcb n _ _ (hcb _ _) h1
        · rw [h1] at h; cases h
      · cases h

theorem aAdvance_not_bug {W} (cb : Ev → W → Prog W) (hcb : ∀ e w, (cb e w).SchedOnly) (n : Nat)
    (a : Abs W) : aAdvance cb n a ≠ .bug := by
  unfold aAdvance
  split
  · simp
  · exact aAdvLoop_not_bug cb hcb n _

theorem aRun_not_bug {W} (cb : Ev → W → Prog W) (hcb : ∀ e w, (cb e w).SchedOnly) (n : Nat)
    (ops : List (Op W)) (hops : ∀ o ∈ ops, o.SchedOnly) : ∀ (a : Abs W), aRun cb n a ops ≠ .bug := by
  induction ops with
  | nil => intro a h; cases h
  | cons op ops ih =>
    intro a h
    have ih' := ih (fun o ho => hops o (List.mem_cons_of_mem _ ho))
    have hop := hops op (by simp)
    cases op with
    | code p =>
      simp only [aRun] at h
      rcases h1 : aExec cb n a (p a.w) with a1 | _ | _
      · rw [h1] at h; exact ih' _ h
      · exact aExec_not_bug cb hcb n _ _ (hop _) h1
      · rw [h1] at h; cases h
    | advance =>
      simp only [aRun] at h
      rcases h1 : aAdvance cb n a with a1 | _ | _
      · rw [h1] at h; exact ih' _ h
      · exact aAdvance_not_bug cb hcb n _ h1
      · rw [h1] at h; cases h

theorem good_init {W} (w : W) : Good (init w) :=
  ⟨aInit w, init_rep w, aInit_inv w, rfl, by simp [aInit]⟩

theorem good_run {W} {cb : Ev → W → Prog W} (hcb : ∀ e w, (cb e w).SchedOnly) {n : Nat}
    {ops : List (Op W)} (hops : ∀ o ∈ ops, o.SchedOnly) {s : St W} (hg : Good s) :
    run cb n s ops = .fuel ∨ ∃ s', run cb n s ops = .ok s' ∧ Good s' := by
  obtain ⟨a, r, hi, hb, hgt⟩ := hg
  have hm := run_rep cb n ops s a r hgt hb
  rcases h1 : aRun cb n a ops with a' | _ | _
  · rw [h1] at hm
    obtain ⟨s', e, r'⟩ := hm
    obtain ⟨i1, i2, i3⟩ := aRun_inv cb n ops a a' hi hb hgt h1
    exact Or.inr ⟨s', e, a', r', i1, i2, i3⟩
  · exact absurd h1 (aRun_not_bug cb hcb n ops hops a)
  · rw [h1] at hm; exact Or.inl hm

theorem good_exec {W} {cb : Ev → W → Prog W} (hcb : ∀ e w, (cb e w).SchedOnly) {n : Nat}
    {p : Prog W} (hp : p.SchedOnly) {s : St W} (hg : Good s) :
    exec cb n s p = .fuel ∨ ∃ s', exec cb n s p = .ok s' ∧ Good s' := by
  have := good_run hcb (n := n) (ops := [Op.code (fun _ => p)]) (by simp [Op.SchedOnly, hp]) hg
  simp only [run] at this
  rcases h : exec cb n s p with s' | _ | _ <;> rw [h] at this
  · simpa using this
  · simp at this
  · simp

theorem good_advance {W} {cb : Ev → W → Prog W} (hcb : ∀ e w, (cb e w).SchedOnly) {n : Nat}
    {s : St W} (hg : Good s) :
    advance cb n s = .fuel ∨ ∃ s', advance cb n s = .ok s' ∧ Good s' := by
  have := good_run hcb (n := n) (ops := [Op.advance]) (by simp [Op.SchedOnly]) hg
  simp only [run] at this
  rcases h : advance cb n s with s' | _ | _ <;> rw [h] at this
  · simpa using this
  · simp at this
  · simp

theorem Seg_mem {h p b xs z} (hs : Seg h p b xs z) : ∀ x ∈ xs, ∃ nd, h x.id = some nd ∧ nd.ev = x.ev := by
  induction xs generalizing p b with
  | nil => simp
  | cons y ys ih =>
    intro x hx
    rcases List.mem_cons.1 hx with rfl | hx
    · exact ⟨_, hs.1, rfl⟩
    · exact ih hs.2 x hx

theorem good_of_cancel {W} {s s' : St W} {a a' : Abs W} {dev func : Nat} (r : Rep s a) (hi : AInv a) (hb : a.busy = false)
    (hgt : ∀ x ∈ a.items, (a.now : Int) < x.due)
    (hc : aCancel a dev func = .ok a') (h : cancelEvent s dev func = .ok s') : Rep s' a' ∧ AInv a' ∧ a'.busy = false ∧
      ∀ x ∈ a'.items, (a'.now : Int) < x.due := by
  obtain ⟨s'', h1, r'⟩ := cancelEvent_rep r dev func hc
  rw [h] at h1
  cases h1
  have he : aExec (fun _ w => .ret w) 2 a (.cancel a.w dev func .ret) = .ok a' := by
    simp only [aExec]
    have : ({ a with w := a.w } : Abs W) = a := rfl
    rw [this, hc]
    simp only [AOut.bind_ok]
  have hi' := aExec_inv _ _ _ _ _ hi he
  obtain ⟨e1, e2, e3⟩ := aExec_gt _ _ _ _ _ (fun _ => False) (fun x hx => Or.inr (hgt x hx)) he
  exact ⟨r', hi', e2.trans hb, fun x hx => (e3 x hx).resolve_left id⟩

/-- Cancelling the first record. -/
theorem good_cancelHead {W} {s : St W} {p : Nat} {nd : Node} (hg : Good s) (hh : s.head = some p)
    (hn : s.heap p = some nd) :
    ∃ s', cancelEvent s nd.ev.dev nd.ev.func = .ok s' ∧ Good s' ∧ s'.log = (s.now, .cancel p) :: s.log ∧
      s'.now = s.now ∧ s'.w = s.w := by
  obtain ⟨a, r, hi, hb, hgt⟩ := hg
  rcases hit : a.items with _ | ⟨x, xs⟩
  · rw [r.head, hit] at hh; simp at hh
  · have hp : x.id = p := by rw [r.head, hit] at hh; simpa using hh
    have hseg := r.seg
    rw [hit] at hseg
    have hnd := hseg.1
    rw [hp, hn] at hnd
    simp only [Option.some.injEq] at hnd
    have hc : aCancel a nd.ev.dev nd.ev.func = .ok { a with items := xs, log := (a.now, .cancel x.id) :: a.log } := by
      unfold aCancel
      rw [hit]
      simp [Item.hits, hnd, hb]
    obtain ⟨s', h1, r'⟩ := cancelEvent_rep r _ _ hc
    have := good_of_cancel r hi hb hgt hc h1
    refine ⟨s', h1, ⟨_, this⟩, ?_, ?_, ?_⟩
    · rw [this.1.log, r.now, r.log, hp]
    · rw [this.1.now, r.now]
    · rw [this.1.w, r.w]

theorem good_cancelMiss {W} {s : St W} {dev func : Nat} (hg : Good s)
    (hm : ∀ p nd, s.heap p = some nd → ¬ (nd.ev.dev = dev ∧ nd.ev.func = func)) :
    cancelEvent s dev func = .ok s := by
  obtain ⟨a, r, hi, hb, hgt⟩ := hg
  have hno : ∀ x ∈ a.items, x.hits dev func = false := by
    intro x hx
    obtain ⟨nd, h1, h2⟩ := Seg_mem r.seg x hx
    have := hm _ _ h1
    rw [h2] at this
    simpa [Item.hits] using this
  rcases hit : a.items with _ | ⟨x, xs⟩
  · simp [cancelEvent, r.head, hit]
  · have hseg := r.seg
    have hlen := r.len
    rw [hit] at hseg hlen hno
    simp only [cancelEvent, r.head, hit, hd_cons]
    exact cancelLoop_miss dev func xs s.fresh s none a.now x (by have := r.fresh; simp at hlen; omega) hseg hno

theorem good_reach {W} {cb : Ev → W → Prog W} (hcb : ∀ e w, (cb e w).SchedOnly) {s : St W} (h : Reach cb s) : Good s := by
  induction h with
  | init w => exact good_init w
  | code _ hp he ih =>
    rcases good_exec hcb hp ih with h | ⟨s', h, hg⟩
    · rw [h] at he; cases he
    · rw [h] at he; cases he; exact hg
  | advance _ he ih =>
    rcases good_advance hcb ih with h | ⟨s', h, hg⟩
    · rw [h] at he; cases he
    · rw [h] at he; cases he; exact hg
  | cancelHead _ hh hn he ih =>
    obtain ⟨s', h, hg, -⟩ := good_cancelHead ih hh hn
    rw [h] at he; cases he; exact hg
  | cancelMiss _ hm he ih =>
    rw [good_cancelMiss ih hm] at he; cases he; exact ih

theorem reach_of_run {W} {cb : Ev → W → Prog W} {n : Nat} {ops : List (Op W)} (hops : ∀ o ∈ ops, o.SchedOnly) :
    ∀ {s s' : St W}, Reach cb s → run cb n s ops = .ok s' → Reach cb s' := by
  induction ops with
  | nil => intro s s' hr h; cases h; exact hr
  | cons op ops ih =>
    intro s s' hr h
    have ih' := @ih (fun o ho => hops o (List.mem_cons_of_mem _ ho))
    have hop := hops op (by simp)
    cases op with
    | code p =>
      simp only [run] at h
      rcases h1 : exec cb n s (p s.w) with s1 | _ | _ <;> rw [h1] at h
      · exact ih' (Reach.code hr (hop _) h1) h
      · cases h
      · cases h
    | advance =>
      simp only [run] at h
      rcases h1 : advance cb n s with s1 | _ | _ <;> rw [h1] at h
      · exact ih' (Reach.advance hr h1) h
      · cases h
      · cases h

/-- Status of a scheduled record in a good state. -/
theorem good_status {W} {s : St W} (hg : Good s) {m id e t} (hm : (m, Entry.sched id e t) ∈ s.log) :
    0 < t ∧ (Cancelled s.log id → fires s.log id = []) ∧
    (¬ Cancelled s.log id → fires s.log id = if m + t ≤ s.now then [((m + t).toNat, e)] else []) := by
  obtain ⟨a, r, hi, hb, hgt⟩ := hg
  rw [r.log] at hm ⊢
  rw [r.now]
  have hp : pend a = a.items := by simp [pend, hb]
  have hi1 := hi.1
  rw [hp] at hi1
  obtain ⟨h1, h2, h3, h4⟩ := hi1.status m id e t hm
  refine ⟨h3, ?_, ?_⟩
  · intro hc
    rcases h4 with ⟨x, hx, h5, h6, h7, h8, h9⟩ | ⟨h5, h6, h7⟩ | ⟨h5, h6, h7⟩
    · exact h8
    · exact absurd hc h7
    · exact h6
  · intro hc
    rcases h4 with ⟨x, hx, h5, h6, h7, h8, h9⟩ | ⟨h5, ⟨k, h6, h8, h9⟩, h7⟩ | ⟨h5, h6, h7⟩
    · rw [h8, if_neg]
      have := hgt x hx
      omega
    · rw [h6, if_pos (by omega)]
      congr 2
      omega
    · exact absurd h7 hc

theorem hd_eq (xs : List Item) : hd xs none = (xs.map Item.id).head? := by cases xs <;> rfl
theorem lst_eq (xs : List Item) (z) : lst xs z = if xs = [] then z else (xs.map Item.id).getLast? := by
  induction xs generalizing z with
  | nil => simp [lst]
  | cons x xs ih =>
    simp only [lst, ih]
    cases xs with
    | nil => simp
    | cons y ys => simp [List.getLast?_cons_cons]

theorem Seg_get {h p b xs z} (hs : Seg h p b xs z) : ∀ (i : Nat) (x : Item), xs[i]? = some x →
    ∃ nd, h x.id = some nd ∧ nd.next = (if i + 1 = xs.length then z else (xs.map Item.id)[i+1]?) ∧
      nd.prev = (if i = 0 then p else (xs.map Item.id)[i-1]?) ∧ nd.ev = x.ev ∧
      nd.time = x.due - (if i = 0 then b else ((xs.map Item.due)[i-1]?.getD b)) := by
  induction xs generalizing p b with
  | nil => simp
  | cons y ys ih =>
    intro i x hx
    cases i with
    | zero =>
      simp only [List.getElem?_cons_zero, Option.some.injEq] at hx
      subst hx
      refine ⟨_, hs.1, ?_, by simp, rfl, by simp⟩
      cases ys with
      | nil => simp
      | cons w ws => simp
    | succ i =>
      simp only [List.getElem?_cons_succ] at hx
      obtain ⟨nd, h1, h2, h3, h4, h5⟩ := ih hs.2 i x hx
      refine ⟨nd, h1, ?_, ?_, h4, ?_⟩
      · rw [h2]; simp
      · rw [h3]
        cases i with
        | zero => simp
        | succ i => simp
      · rw [h5]
        have hi : i < ys.length := by
          rcases Nat.lt_or_ge i ys.length with h | h
          · exact h
          · rw [List.getElem?_eq_none h] at hx; cases hx
        cases i with
        | zero => simp
        | succ i =>
          have : i < ys.length := by omega
          simp [List.getElem?_eq_getElem this]

theorem good_linked {W} {s : St W} (hg : Good s) : ∃ l, WellLinked s l := by
  obtain ⟨a, r, hi, hb, hgt⟩ := hg
  refine ⟨a.items.map Item.id, r.ids, ?_, ?_, ?_, ?_⟩
  · intro p
    constructor
    · intro hp
      simp only [List.mem_map] at hp
      obtain ⟨x, hx, rfl⟩ := hp
      obtain ⟨nd, h1, -⟩ := Seg_mem r.seg x hx
      simp [h1]
    · intro hp
      by_cases hm : p ∈ a.items.map Item.id
      · exact hm
      · exact absurd (r.leak p hm) hp
  · rw [r.head, hd_eq]
  · rw [r.tail, lst_eq]
    split
    · rename_i h; simp [h]
    · rfl
  · intro i p hp
    rw [List.getElem?_map] at hp
    cases hx : a.items[i]? with
    | none => rw [hx] at hp; simp at hp
    | some x =>
      rw [hx] at hp
      simp only [Option.map_some, Option.some.injEq] at hp
      subst hp
      obtain ⟨nd, h1, h2, h3, -⟩ := Seg_get r.seg i x hx
      refine ⟨nd, h1, ?_, h3⟩
      rw [h2]
      split
      · rename_i h
        rw [List.getElem?_eq_none]
        simp [h]
      · rfl

/-- Stored times lie between 0 and the delay given by the caller. -/
theorem good_times {W} {s : St W} (hg : Good s) {p nd} (hp : s.heap p = some nd) :
    0 ≤ nd.time ∧ ∃ m t, (m, Entry.sched p nd.ev t) ∈ s.log ∧ nd.time ≤ t := by
  obtain ⟨a, r, hi, hb, hgt⟩ := hg
  have hpend : pend a = a.items := by simp [pend, hb]
  have hi1 := hi.1
  rw [hpend] at hi1
  by_cases hm : p ∈ a.items.map Item.id
  · simp only [List.mem_map] at hm
    obtain ⟨x, hx, rfl⟩ := hm
    obtain ⟨i, hi', hxi⟩ := List.getElem_of_mem hx
    have hxi' : a.items[i]? = some x := by rw [List.getElem?_eq_getElem hi', hxi]
    obtain ⟨nd', h1, -, -, h4, h5⟩ := Seg_get r.seg i x hxi'
    rw [hp] at h1
    cases h1
    obtain ⟨m, t, hsrc, hdue⟩ := hi1.src x hx
    obtain ⟨-, hmn, -, -⟩ := hi1.status _ _ _ _ hsrc
    have hgx := hgt x hx
    have hlow : 0 ≤ nd.time ∧ nd.time ≤ x.due - a.now := by
      rw [h5]
      cases i with
      | zero => simp; omega
      | succ i =>
        have hi2 : i < a.items.length := by omega
        have hle := List.pairwise_iff_getElem.1 r.sorted i (i+1) hi2 hi' (by omega)
        rw [hxi] at hle
        have hg2 := hgt (a.items[i]) (List.getElem_mem _)
        simp [List.getElem?_eq_getElem hi2]
        omega
    refine ⟨hlow.1, m, t, ?_, ?_⟩
    · rw [r.log, h4]; exact hsrc
    · omega
  · rw [r.leak p hm] at hp; cases hp

theorem run_no_cancel {W} {cb : Ev → W → Prog W} (hcb : ∀ e w, (cb e w).SchedOnly) {n : Nat}
    {ops : List (Op W)} (hops : ∀ o ∈ ops, o.SchedOnly) {w : W} {s : St W}
    (h' : run cb n (init w) ops = .ok s) (id : Nat) : ¬ Cancelled s.log id := by
  have key : ∀ (n : Nat) (a a' : Abs W) (p : Prog W), p.SchedOnly → (∀ m i, (m, Entry.cancel i) ∉ a.log) →
      aExec cb n a p = .ok a' → ∀ m i, (m, Entry.cancel i) ∉ a'.log := by
    intro n
    induction n with
    | zero => intro a a' p _ _ h; simp [aExec] at h
    | succ n ih =>
      intro a a' p hp hl h
      cases p with
      | ret w => simp only [aExec, AOut.ok.injEq] at h; subst h; exact hl
      | sched w e t k =>
        simp only [aExec] at h
        split at h
        · rcases h1 : aExec cb n { a with w := w, log := (a.now, .imm e) :: a.log } (cb e w) with a1 | _ | _
          · rw [h1] at h
            exact ih a1 a' _ (hp.2 _) (ih _ a1 _ (hcb e w) (by simpa using hl) h1) h
          · rw [h1] at h; cases h
          · rw [h1] at h; cases h
        · split at h
          · cases h
          · exact ih _ a' _ (hp.2 _) (by simpa [aInsert] using hl) h
      | cancel w d f k => exact hp.elim
  have keyA : ∀ (n : Nat) (a a' : Abs W), (∀ m i, (m, Entry.cancel i) ∉ a.log) →
      aAdvLoop cb n a = .ok a' → ∀ m i, (m, Entry.cancel i) ∉ a'.log := by
    intro n
    induction n with
    | zero => intro a a' _ h; simp [aAdvLoop] at h
    | succ n ih =>
      intro a a' hl h
      unfold aAdvLoop at h
      split at h
      · cases h; exact hl
      · rename_i x xs hx
        split at h
        · rcases h1 : aExec cb n { a with log := (a.now, .fire x.id x.ev) :: a.log, busy := true } (cb x.ev a.w) with a1 | _ | _
          · rw [h1] at h
            exact ih { a1 with items := a1.items.tail, busy := false } a' (key n _ a1 _ (hcb _ _) (by simpa using hl) h1) h
          · rw [h1] at h; cases h
          · rw [h1] at h; cases h
        · cases h; exact hl
  have keyR : ∀ (ops : List (Op W)), (∀ o ∈ ops, o.SchedOnly) → ∀ (a a' : Abs W), (∀ m i, (m, Entry.cancel i) ∉ a.log) →
      aRun cb n a ops = .ok a' → ∀ m i, (m, Entry.cancel i) ∉ a'.log := by
    intro ops
    induction ops with
    | nil => intro _ a a' hl h; cases h; exact hl
    | cons op ops ih =>
      intro hops a a' hl h
      have ih' := ih (fun o ho => hops o (List.mem_cons_of_mem _ ho))
      have hop := hops op (by simp)
      cases op with
      | code p =>
        simp only [aRun] at h
        rcases h1 : aExec cb n a (p a.w) with a1 | _ | _ <;> rw [h1] at h
        · exact ih' a1 a' (key n a a1 _ (hop _) hl h1) h
        · cases h
        · cases h
      | advance =>
        simp only [aRun] at h
        rcases h1 : aAdvance cb n a with a1 | _ | _ <;> rw [h1] at h
        · refine ih' a1 a' ?_ h
          unfold aAdvance at h1
          split at h1
          · cases h1; exact hl
          · exact keyA n { a with now := a.now + 1 } a1 hl h1
        · cases h
        · cases h
  have hm := run_rep cb n ops (init w) (aInit w) (init_rep w) (by simp [aInit]) rfl
  rcases h1 : aRun cb n (aInit w) ops with a' | _ | _
  · rw [h1] at hm
    obtain ⟨s', e1, r'⟩ := hm
    rw [h'] at e1; cases e1
    rintro ⟨m', hc⟩
    rw [r'.log] at hc
    exact keyR ops hops (aInit w) a' (by simp [aInit]) h1 m' id hc
  · exact absurd h1 (aRun_not_bug cb hcb n ops hops _)
  · rw [h1] at hm
    simp only [Match] at hm
    rw [h'] at hm; cases hm

/-! Termination. -/

theorem aExec_term_pos {W} (cb : Ev → W → Prog W) (p : Prog W) (hp : p.PosOnly) :
    ∀ (a : Abs W), ∃ N, ∃ a', ∀ n, N ≤ n → aExec cb n a p = .ok a' := by
  induction p with
  | ret w =>
    intro a
    refine ⟨1, { a with w := w }, ?_⟩
    intro n hn
    obtain ⟨n, rfl⟩ : ∃ m, n = m + 1 := ⟨n - 1, by omega⟩
    rfl
  | sched w e t k ih =>
    intro a
    obtain ⟨N, a', h⟩ := ih _ (hp.2 _) (aInsert { a with w := w } e t)
    refine ⟨N + 1, a', ?_⟩
    intro n hn
    obtain ⟨n, rfl⟩ : ∃ m, n = m + 1 := ⟨n - 1, by omega⟩
    have ht := hp.1
    simp only [aExec]
    rw [if_neg (by omega), if_neg (by omega)]
    exact h n (by omega)
  | cancel w d f k => exact hp.elim

theorem aExec_term {W} (cb : Ev → W → Prog W) (hcb : ∀ e w, (cb e w).PosOnly) (p : Prog W) (hp : p.SchedOnly) :
    ∀ (a : Abs W), ∃ N, ∃ a', ∀ n, N ≤ n → aExec cb n a p = .ok a' := by
  induction p with
  | ret w =>
    intro a
    refine ⟨1, { a with w := w }, ?_⟩
    intro n hn
    obtain ⟨n, rfl⟩ : ∃ m, n = m + 1 := ⟨n - 1, by omega⟩
    rfl
  | sched w e t k ih =>
    intro a
    by_cases h0 : t = 0
    · obtain ⟨N1, a1, h1⟩ := aExec_term_pos cb (cb e w) (hcb e w) { a with w := w, log := (a.now, .imm e) :: a.log }
      obtain ⟨N2, a2, h2⟩ := ih a1.w (hp.2 _) a1
      refine ⟨N1 + N2 + 1, a2, ?_⟩
      intro n hn
      obtain ⟨n, rfl⟩ : ∃ m, n = m + 1 := ⟨n - 1, by omega⟩
      simp only [aExec, h0, if_true]
      rw [h1 n (by omega)]
      exact h2 n (by omega)
    · obtain ⟨N, a', h⟩ := ih _ (hp.2 _) (aInsert { a with w := w } e t)
      refine ⟨N + 1, a', ?_⟩
      intro n hn
      obtain ⟨n, rfl⟩ : ∃ m, n = m + 1 := ⟨n - 1, by omega⟩
      have ht := hp.1
      simp only [aExec]
      rw [if_neg (by omega), if_neg (by omega)]
      exact h n (by omega)
  | cancel w d f k => exact hp.elim

def dueNow (now : Int) (xs : List Item) : Nat := xs.countP (fun x => x.due = now)

theorem dueNow_ins {now : Int} {x : Item} {xs : List Item} (h : x.due ≠ now) : dueNow now (ins x xs) = dueNow now xs := by
  unfold dueNow
  rw [(ins_perm x xs).countP_eq]
  simp [List.countP_cons, h]

theorem aExec_dueNow {W} (cb : Ev → W → Prog W) (hcb : ∀ e w, (cb e w).SchedOnly) (n : Nat) :
    ∀ (a a' : Abs W) (p : Prog W), p.SchedOnly → aExec cb n a p = .ok a' →
    dueNow a.now a'.items = dueNow a.now a.items ∧ a'.now = a.now := by
  induction n with
  | zero => intro a a' p _ h; simp [aExec] at h
  | succ n ih =>
    intro a a' p hp h
    cases p with
    | ret w => simp only [aExec, AOut.ok.injEq] at h; subst h; exact ⟨rfl, rfl⟩
    | sched w e t k =>
      simp only [aExec] at h
      split at h
      · rcases h1 : aExec cb n { a with w := w, log := (a.now, .imm e) :: a.log } (cb e w) with a1 | _ | _
        · rw [h1] at h
          have e1 := ih _ a1 _ (hcb e w) h1
          have e2 := ih a1 a' _ (hp.2 _) h
          simp only at e1
          rw [e1.2] at e2
          exact ⟨e2.1.trans e1.1, e2.2⟩
        · rw [h1] at h; cases h
        · rw [h1] at h; cases h
      · split at h
        · cases h
        · have e2 := ih (aInsert { a with w := w } e t) a' _ (hp.2 _) h
          refine ⟨e2.1.trans ?_, e2.2⟩
          exact dueNow_ins (by simp [aInsert]; omega)
    | cancel w d f k => exact hp.elim

theorem PosOnly.schedOnly {W} {p : Prog W} (h : p.PosOnly) : p.SchedOnly := by
  induction p with
  | ret w => trivial
  | sched w e t k ih => exact ⟨Int.le_of_lt h.1, fun w => ih w (h.2 w)⟩
  | cancel w d f k => exact h.elim

theorem aAdvLoop_term {W} (cb : Ev → W → Prog W) (hcb : ∀ e w, (cb e w).PosOnly) (c : Nat) :
    ∀ (a : Abs W), dueNow a.now a.items ≤ c → ∃ N, ∃ a', ∀ n, N ≤ n → aAdvLoop cb n a = .ok a' := by
  induction c with
  | zero =>
    intro a hc
    refine ⟨1, a, ?_⟩
    intro n hn
    obtain ⟨n, rfl⟩ : ∃ m, n = m + 1 := ⟨n - 1, by omega⟩
    unfold aAdvLoop
    split
    · rfl
    · rename_i x xs hx
      split
      · rename_i hd
        rw [hx] at hc
        simp [dueNow, List.countP_cons, hd] at hc
      · rfl
  | succ c ih =>
    intro a hc
    rcases hx : a.items with _ | ⟨x, xs⟩
    · refine ⟨1, a, ?_⟩
      intro n hn
      obtain ⟨n, rfl⟩ : ∃ m, n = m + 1 := ⟨n - 1, by omega⟩
      unfold aAdvLoop
      simp [hx]
    · by_cases hd : x.due = a.now
      · obtain ⟨N1, a1, h1⟩ := aExec_term_pos cb (cb x.ev a.w) (hcb _ _)
          { a with log := (a.now, .fire x.id x.ev) :: a.log, busy := true }
        have h1' := h1 N1 (Nat.le_refl _)
        obtain ⟨-, hn1, ys, hys⟩ := aExec_busy cb N1
          { a with log := (a.now, .fire x.id x.ev) :: a.log, busy := true } a1 _ x xs rfl hx hd h1'
        have hcount := (aExec_dueNow cb (fun e w => PosOnly.schedOnly (hcb e w)) N1
          { a with log := (a.now, .fire x.id x.ev) :: a.log, busy := true } a1 _ (PosOnly.schedOnly (hcb _ _)) h1').1
        simp only [hys, hx] at hcount
        rw [hx] at hc
        have e1 : ∀ zs, dueNow a.now (x :: zs) = dueNow a.now zs + 1 := by
          intro zs; simp [dueNow, List.countP_cons, hd]
        rw [e1] at hc
        rw [e1, e1] at hcount
        obtain ⟨N2, a2, h2⟩ := ih { a1 with items := a1.items.tail, busy := false } (by
          simp only [hys, List.tail_cons, hn1]
          omega)
        refine ⟨N1 + N2 + 1, a2, ?_⟩
        intro n hn
        obtain ⟨n, rfl⟩ : ∃ m, n = m + 1 := ⟨n - 1, by omega⟩
        unfold aAdvLoop
        split
        · rename_i h; rw [hx] at h; cases h
        · rename_i x' xs' hx'
          rw [hx] at hx'
          cases hx'
          rw [if_pos hd, h1 n (by omega)]
          exact h2 n (by omega)
      · refine ⟨1, a, ?_⟩
        intro n hn
        obtain ⟨n, rfl⟩ : ∃ m, n = m + 1 := ⟨n - 1, by omega⟩
        unfold aAdvLoop
        split
        · rfl
        · rename_i x' xs' hx'
          rw [hx] at hx'
          cases hx'
          rw [if_neg hd]

theorem aRun_term {W} (cb : Ev → W → Prog W) (hcb : ∀ e w, (cb e w).PosOnly)
    (ops : List (Op W)) (hops : ∀ o ∈ ops, o.SchedOnly) : ∀ (a : Abs W),
    ∃ N, ∃ a', ∀ n, N ≤ n → aRun cb n a ops = .ok a' := by
  induction ops with
  | nil => intro a; exact ⟨0, a, fun n _ => rfl⟩
  | cons op ops ih =>
    intro a
    have ih' := ih (fun o ho => hops o (List.mem_cons_of_mem _ ho))
    have hop := hops op (by simp)
    cases op with
    | code p =>
      obtain ⟨N1, a1, h1⟩ := aExec_term cb hcb (p a.w) (hop _) a
      obtain ⟨N2, a2, h2⟩ := ih' a1
      refine ⟨N1 + N2, a2, fun n hn => ?_⟩
      simp only [aRun]
      rw [h1 n (by omega)]
      exact h2 n (by omega)
    | advance =>
      have : ∃ N, ∃ a', ∀ n, N ≤ n → aAdvance cb n a = .ok a' := by
        unfold aAdvance
        split
        · exact ⟨0, _, fun n _ => rfl⟩
        · exact aAdvLoop_term cb hcb _ _ (Nat.le_refl _)
      obtain ⟨N1, a1, h1⟩ := this
      obtain ⟨N2, a2, h2⟩ := ih' a1
      refine ⟨N1 + N2, a2, fun n hn => ?_⟩
      simp only [aRun]
      rw [h1 n (by omega)]
      exact h2 n (by omega)

end Verif.Event
