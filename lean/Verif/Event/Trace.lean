import Verif.Event.Refine
import Verif.Event.LogSpec
/- Log invariants of the abstract scheduler. -/
namespace Verif.Event

structure LInv (P : List Item) (fresh now : Nat) (log : List (Nat × Entry)) : Prop where
  ids : Ids P
  lt : ∀ x ∈ P, x.id < fresh
  sorted : P.Pairwise (fun x y => x.due < y.due ∨ (x.due = y.due ∧ y.id < x.id))
  ge : ∀ x ∈ P, (now : Int) ≤ x.due
  src : ∀ x ∈ P, ∃ n t, (n, Entry.sched x.id x.ev t) ∈ log ∧ x.due = n + t
  status : ∀ n id e t, (n, Entry.sched id e t) ∈ log →
    id < fresh ∧ n ≤ now ∧ 0 < t ∧
    ((∃ x ∈ P, x.id = id ∧ x.ev = e ∧ x.due = n + t ∧ fires log id = [] ∧ ¬ Cancelled log id) ∨
     ((∀ x ∈ P, x.id ≠ id) ∧ (∃ m, fires log id = [(m, e)] ∧ (m : Int) = n + t ∧ m ≤ now) ∧ ¬ Cancelled log id) ∨
     ((∀ x ∈ P, x.id ≠ id) ∧ fires log id = [] ∧ Cancelled log id))
  flt : ∀ m id e, (m, Entry.fire id e) ∈ log → id < fresh ∧ m ≤ now ∧
    ∃ n t, (n, Entry.sched id e t) ∈ log ∧ (m : Int) = n + t
  clt : ∀ m id, (m, Entry.cancel id) ∈ log → id < fresh
  forder : (firings log).Pairwise (fun a b => b.1 < a.1 ∨ (a.1 = b.1 ∧ a.2 < b.2))
  fnow : ∀ f ∈ firings log, f.1 ≤ now ∧ (f.1 = now → ∀ x ∈ P, x.due = now → x.id < f.2)

theorem mem_firings {log m i} : (m, i) ∈ firings log ↔ ∃ e, (m, Entry.fire i e) ∈ log := by
  unfold firings
  rw [List.mem_filterMap]
  constructor
  · rintro ⟨⟨a, b⟩, hm, h⟩
    cases b <;> simp at h
    obtain ⟨rfl, rfl⟩ := h
    exact ⟨_, hm⟩
  · rintro ⟨e, h⟩
    exact ⟨_, h, by simp⟩

theorem fires_cons_sched (log m id e t j) : fires ((m, Entry.sched id e t) :: log) j = fires log j := rfl
theorem fires_cons_imm (log m e j) : fires ((m, Entry.imm e) :: log) j = fires log j := rfl
theorem fires_cons_cancel (log m i j) : fires ((m, Entry.cancel i) :: log) j = fires log j := rfl
theorem fires_cons_fire (log m i e j) : fires ((m, Entry.fire i e) :: log) j =
    if i = j then (m, e) :: fires log j else fires log j := by
  unfold fires; rw [List.filterMap_cons]; simp only; split <;> simp_all

theorem fires_nil_of_fresh {log fresh} (h : ∀ m id e, (m, Entry.fire id e) ∈ log → id < fresh) :
    fires log fresh = [] := by
  unfold fires
  rw [List.filterMap_eq_nil_iff]
  rintro ⟨m, b⟩ hm
  cases b <;> simp
  have := h _ _ _ hm
  omega

theorem ins_sorted2 {x : Item} {xs : List Item} (hid : ∀ y ∈ xs, y.id < x.id)
    (h : xs.Pairwise (fun x y => x.due < y.due ∨ (x.due = y.due ∧ y.id < x.id))) :
    (ins x xs).Pairwise (fun x y => x.due < y.due ∨ (x.due = y.due ∧ y.id < x.id)) := by
  induction xs with
  | nil => simp [ins]
  | cons z zs ih =>
    simp only [ins]
    have h' := List.pairwise_cons.1 h
    split
    · rename_i hle
      rw [List.pairwise_cons]
      refine ⟨?_, h⟩
      intro y hy
      have hy' := hid y hy
      rcases List.mem_cons.1 hy with rfl | hy
      · omega
      · have := h'.1 y hy; omega
    · rw [List.pairwise_cons]
      refine ⟨?_, ih (fun y hy => hid y (List.mem_cons_of_mem _ hy)) h'.2⟩
      intro y hy
      rcases mem_ins.1 hy with rfl | hy
      · omega
      · exact h'.1 y hy

theorem LInv.insert {P fresh now log} (h : LInv P fresh now log) (e : Ev) (t : Int) (ht : 0 < t) :
    LInv (ins ⟨fresh, e, now + t⟩ P) (fresh + 1) now ((now, .sched fresh e t) :: log) where
  ids := by
    unfold Ids
    rw [((ins_perm _ _).map Item.id).nodup_iff]
    simp only [List.map_cons, List.nodup_cons]
    refine ⟨?_, h.ids⟩
    intro hm
    simp only [List.mem_map] at hm
    obtain ⟨x, hx, hm⟩ := hm
    have := h.lt x hx
    omega
  lt := by
    intro x hx
    rcases mem_ins.1 hx with rfl | hx
    · simp
    · have := h.lt x hx; omega
  sorted := ins_sorted2 (fun y hy => h.lt y hy) h.sorted
  ge := by
    intro x hx
    rcases mem_ins.1 hx with rfl | hx
    · simp; omega
    · exact h.ge x hx
  src := by
    intro x hx
    rcases mem_ins.1 hx with rfl | hx
    · exact ⟨now, t, by simp, rfl⟩
    · obtain ⟨n, t', h1, h2⟩ := h.src x hx
      exact ⟨n, t', List.mem_cons_of_mem _ h1, h2⟩
  status := by
    intro n id e' t' hm
    rcases List.mem_cons.1 hm with heq | hm
    · simp only [Prod.mk.injEq, Entry.sched.injEq] at heq
      obtain ⟨rfl, rfl, rfl, rfl⟩ := heq
      refine ⟨by omega, Nat.le_refl _, ht, Or.inl ⟨_, mem_ins.2 (Or.inl rfl), rfl, rfl, rfl, ?_, ?_⟩⟩
      · rw [fires_cons_sched]
        exact fires_nil_of_fresh (fun m id e h' => (h.flt m id e h').1)
      · rintro ⟨m, hc⟩
        simp only [List.mem_cons, Prod.mk.injEq, reduceCtorEq, and_false, false_or] at hc
        have := h.clt _ _ hc
        omega
    · obtain ⟨h1, h2, h3, h4⟩ := h.status n id e' t' hm
      have hcan : Cancelled ((now, Entry.sched fresh e t) :: log) id ↔ Cancelled log id := by
        simp [Cancelled]
      refine ⟨by omega, h2, h3, ?_⟩
      rw [fires_cons_sched, hcan]
      rcases h4 with ⟨x, hx, h5⟩ | ⟨h5, h6⟩ | ⟨h5, h6⟩
      · exact Or.inl ⟨x, mem_ins.2 (Or.inr hx), h5⟩
      · refine Or.inr (Or.inl ⟨?_, h6⟩)
        intro x hx
        rcases mem_ins.1 hx with rfl | hx
        · simp; omega
        · exact h5 x hx
      · refine Or.inr (Or.inr ⟨?_, h6⟩)
        intro x hx
        rcases mem_ins.1 hx with rfl | hx
        · simp; omega
        · exact h5 x hx
  flt := by
    intro m id e' hm
    simp only [List.mem_cons, Prod.mk.injEq, reduceCtorEq, and_false, false_or] at hm
    obtain ⟨h1, h2, n, t', h3, h4⟩ := h.flt m id e' hm
    exact ⟨by omega, h2, n, t', List.mem_cons_of_mem _ h3, h4⟩
  clt := by
    intro m id hm
    simp only [List.mem_cons, Prod.mk.injEq, reduceCtorEq, and_false, false_or] at hm
    have := h.clt m id hm
    omega
  forder := h.forder
  fnow := by
    intro f hf
    obtain ⟨h1, h2⟩ := h.fnow f hf
    refine ⟨h1, ?_⟩
    intro hfn x hx hxd
    rcases mem_ins.1 hx with rfl | hx
    · simp at hxd; omega
    · exact h2 hfn x hx hxd

theorem LInv.imm {P fresh now log} (h : LInv P fresh now log) (e : Ev) :
    LInv P fresh now ((now, .imm e) :: log) where
  ids := h.ids
  lt := h.lt
  sorted := h.sorted
  ge := h.ge
  src := by
    intro x hx
    obtain ⟨n, t', h1, h2⟩ := h.src x hx
    exact ⟨n, t', List.mem_cons_of_mem _ h1, h2⟩
  status := by
    intro n id e' t' hm
    simp only [List.mem_cons, Prod.mk.injEq, reduceCtorEq, and_false, false_or] at hm
    have hcan : Cancelled ((now, Entry.imm e) :: log) id ↔ Cancelled log id := by simp [Cancelled]
    rw [fires_cons_imm, hcan]
    exact h.status n id e' t' hm
  flt := by
    intro m id e' hm
    simp only [List.mem_cons, Prod.mk.injEq, reduceCtorEq, and_false, false_or] at hm
    obtain ⟨h1, h2, n, t', h3, h4⟩ := h.flt m id e' hm
    exact ⟨h1, h2, n, t', List.mem_cons_of_mem _ h3, h4⟩
  clt := by
    intro m id hm
    simp only [List.mem_cons, Prod.mk.injEq, reduceCtorEq, and_false, false_or] at hm
    exact h.clt m id hm
  forder := h.forder
  fnow := h.fnow

theorem LInv.fire {x P fresh now log} (h : LInv (x :: P) fresh now log) (hd : x.due = now) :
    LInv P fresh now ((now, .fire x.id x.ev) :: log) where
  ids := (ids_cons.1 h.ids).2
  lt := fun y hy => h.lt y (List.mem_cons_of_mem _ hy)
  sorted := (List.pairwise_cons.1 h.sorted).2
  ge := fun y hy => h.ge y (List.mem_cons_of_mem _ hy)
  src := by
    intro y hy
    obtain ⟨n, t', h1, h2⟩ := h.src y (List.mem_cons_of_mem _ hy)
    exact ⟨n, t', List.mem_cons_of_mem _ h1, h2⟩
  status := by
    intro n id e' t' hm
    simp only [List.mem_cons, Prod.mk.injEq, reduceCtorEq, and_false, false_or] at hm
    have hcan : Cancelled ((now, Entry.fire x.id x.ev) :: log) id ↔ Cancelled log id := by simp [Cancelled]
    obtain ⟨h1, h2, h3, h4⟩ := h.status n id e' t' hm
    refine ⟨h1, h2, h3, ?_⟩
    rw [fires_cons_fire, hcan]
    have hxid := (ids_cons.1 h.ids).1
    rcases h4 with ⟨y, hy, h5, h6, h7, h8, h9⟩ | ⟨h5, h6⟩ | ⟨h5, h6⟩
    · by_cases hxe : x.id = id
      · have hyx : y = x := by
          rcases List.mem_cons.1 hy with rfl | hy
          · rfl
          · exact absurd (List.mem_map.2 ⟨y, hy, h5⟩) (by rw [← hxe]; exact hxid)
        subst hyx
        right; left
        refine ⟨?_, ⟨now, ?_, by omega, Nat.le_refl _⟩, h9⟩
        · intro z hz hzi
          exact hxid (List.mem_map.2 ⟨z, hz, by rw [hzi, hxe]⟩)
        · rw [if_pos hxe, h8, h6]
      · left
        rw [if_neg hxe]
        refine ⟨y, ?_, h5, h6, h7, h8, h9⟩
        rcases List.mem_cons.1 hy with rfl | hy
        · exact absurd h5 hxe
        · exact hy
    · right; left
      rw [if_neg (h5 x (by simp))]
      exact ⟨fun z hz => h5 z (List.mem_cons_of_mem _ hz), h6⟩
    · right; right
      rw [if_neg (h5 x (by simp))]
      exact ⟨fun z hz => h5 z (List.mem_cons_of_mem _ hz), h6⟩
  flt := by
    intro m id e' hm
    simp only [List.mem_cons, Prod.mk.injEq, Entry.fire.injEq] at hm
    rcases hm with ⟨rfl, rfl, rfl⟩ | hm
    · obtain ⟨n, t, h1, h2⟩ := h.src x (by simp)
      exact ⟨h.lt x (by simp), Nat.le_refl _, n, t, List.mem_cons_of_mem _ h1, by omega⟩
    · obtain ⟨h1, h2, n, t', h3, h4⟩ := h.flt m id e' hm
      exact ⟨h1, h2, n, t', List.mem_cons_of_mem _ h3, h4⟩
  clt := by
    intro m id hm
    simp only [List.mem_cons, Prod.mk.injEq, reduceCtorEq, and_false, false_or] at hm
    exact h.clt m id hm
  forder := by
    show ((now, x.id) :: firings log).Pairwise _
    rw [List.pairwise_cons]
    refine ⟨?_, h.forder⟩
    intro f hf
    obtain ⟨h1, h2⟩ := h.fnow f hf
    rcases Nat.lt_or_ge f.1 now with hlt | hge
    · left; exact hlt
    · right
      have : f.1 = now := by omega
      exact ⟨this.symm, h2 this x (by simp) hd⟩
  fnow := by
    intro f hf
    have hf' : f = (now, x.id) ∨ f ∈ firings log := List.mem_cons.1 hf
    rcases hf' with rfl | hf'
    · refine ⟨Nat.le_refl _, ?_⟩
      intro _ y hy hyd
      have := (List.pairwise_cons.1 h.sorted).1 y hy
      simp only
      omega
    · obtain ⟨h1, h2⟩ := h.fnow f hf'
      exact ⟨h1, fun hfn y hy hyd => h2 hfn y (List.mem_cons_of_mem _ hy) hyd⟩

theorem LInv.cancel {x P fresh now log} (h : LInv (x :: P) fresh now log) :
    LInv P fresh now ((now, .cancel x.id) :: log) where
  ids := (ids_cons.1 h.ids).2
  lt := fun y hy => h.lt y (List.mem_cons_of_mem _ hy)
  sorted := (List.pairwise_cons.1 h.sorted).2
  ge := fun y hy => h.ge y (List.mem_cons_of_mem _ hy)
  src := by
    intro y hy
    obtain ⟨n, t', h1, h2⟩ := h.src y (List.mem_cons_of_mem _ hy)
    exact ⟨n, t', List.mem_cons_of_mem _ h1, h2⟩
  status := by
    intro n id e' t' hm
    simp only [List.mem_cons, Prod.mk.injEq, reduceCtorEq, and_false, false_or] at hm
    have hcan : Cancelled ((now, Entry.cancel x.id) :: log) id ↔ id = x.id ∨ Cancelled log id := by
      simp [Cancelled]
      constructor
      · rintro ⟨m, ⟨-, h⟩ | h⟩
        · exact Or.inl h
        · exact Or.inr ⟨m, h⟩
      · rintro (h | ⟨m, h⟩)
        · exact ⟨now, Or.inl ⟨rfl, h⟩⟩
        · exact ⟨m, Or.inr h⟩
    obtain ⟨h1, h2, h3, h4⟩ := h.status n id e' t' hm
    refine ⟨h1, h2, h3, ?_⟩
    rw [fires_cons_cancel, hcan]
    have hxid := (ids_cons.1 h.ids).1
    rcases h4 with ⟨y, hy, h5, h6, h7, h8, h9⟩ | ⟨h5, h6, h7⟩ | ⟨h5, h6, h7⟩
    · by_cases hxe : x.id = id
      · right; right
        refine ⟨?_, h8, Or.inl hxe.symm⟩
        intro z hz hzi
        exact hxid (List.mem_map.2 ⟨z, hz, by rw [hzi, hxe]⟩)
      · left
        refine ⟨y, ?_, h5, h6, h7, h8, ?_⟩
        · rcases List.mem_cons.1 hy with rfl | hy
          · exact absurd h5 hxe
          · exact hy
        · rintro (h | h)
          · exact hxe h.symm
          · exact h9 h
    · right; left
      refine ⟨fun z hz => h5 z (List.mem_cons_of_mem _ hz), h6, ?_⟩
      rintro (h' | h')
      · exact h5 x (by simp) h'.symm
      · exact h7 h'
    · right; right
      exact ⟨fun z hz => h5 z (List.mem_cons_of_mem _ hz), h6, Or.inr h7⟩
  flt := by
    intro m id e' hm
    simp only [List.mem_cons, Prod.mk.injEq, reduceCtorEq, and_false, false_or] at hm
    obtain ⟨h1, h2, n, t', h3, h4⟩ := h.flt m id e' hm
    exact ⟨h1, h2, n, t', List.mem_cons_of_mem _ h3, h4⟩
  clt := by
    intro m id hm
    simp only [List.mem_cons, Prod.mk.injEq, Entry.cancel.injEq] at hm
    rcases hm with ⟨rfl, rfl⟩ | hm
    · exact h.lt x (by simp)
    · exact h.clt m id hm
  forder := h.forder
  fnow := fun f hf => ⟨(h.fnow f hf).1, fun hfn y hy => (h.fnow f hf).2 hfn y (List.mem_cons_of_mem _ hy)⟩

theorem LInv.tick {P fresh now log} (h : LInv P fresh now log) (hgt : ∀ x ∈ P, (now : Int) < x.due) :
    LInv P fresh (now + 1) log where
  ids := h.ids
  lt := h.lt
  sorted := h.sorted
  ge := fun x hx => by have := hgt x hx; omega
  src := h.src
  status := by
    intro n id e t hm
    obtain ⟨h1, h2, h3, h4⟩ := h.status n id e t hm
    refine ⟨h1, by omega, h3, ?_⟩
    rcases h4 with h4 | ⟨h5, ⟨m, h6, h7, h8⟩, h9⟩ | h4
    · exact Or.inl h4
    · exact Or.inr (Or.inl ⟨h5, ⟨m, h6, h7, by omega⟩, h9⟩)
    · exact Or.inr (Or.inr h4)
  flt := by
    intro m id e hm
    obtain ⟨h1, h2, h3⟩ := h.flt m id e hm
    exact ⟨h1, by omega, h3⟩
  clt := h.clt
  forder := h.forder
  fnow := by
    intro f hf
    have := (h.fnow f hf).1
    exact ⟨by omega, fun hfn => by omega⟩

def pend {W} (a : Abs W) : List Item := if a.busy then a.items.tail else a.items

def AInv {W} (a : Abs W) : Prop :=
  LInv (pend a) a.fresh a.now a.log ∧
  (a.busy = true → ∃ x xs, a.items = x :: xs ∧ x.due = a.now)

theorem aExec_inv {W} (cb : Ev → W → Prog W) (n : Nat) : ∀ (a a' : Abs W) (p : Prog W),
    AInv a → aExec cb n a p = .ok a' → AInv a' := by
  induction n with
  | zero => intro a a' p _ h; simp [aExec] at h
  | succ n ih =>
    intro a a' p hs h
    cases p with
    | ret w => simp only [aExec, AOut.ok.injEq] at h; subst h; exact hs
    | sched w e t k =>
      simp only [aExec] at h
      split at h
      · rcases h1 : aExec cb n { a with w := w, log := (a.now, .imm e) :: a.log } (cb e w) with a1 | _ | _
        · rw [h1] at h
          exact ih a1 a' _ (ih { a with w := w, log := (a.now, .imm e) :: a.log } a1 _ ⟨hs.1.imm e, hs.2⟩ h1) h
        · rw [h1] at h; cases h
        · rw [h1] at h; cases h
      · split at h
        · cases h
        · rename_i h0 h1
          refine ih (aInsert { a with w := w } e t) a' _ ?_ h
          have hins := hs.1.insert e t (by omega)
          constructor
          · cases hb : a.busy with
            | false =>
              simp only [pend, aInsert, hb] at hins ⊢
              simpa using hins
            | true =>
              obtain ⟨x, xs, hx, hxd⟩ := hs.2 hb
              simp only [pend, aInsert, hb, hx] at hins ⊢
              have hne : ¬ ((a.now : Int) + t ≤ x.due) := by omega
              simpa [ins, hne] using hins
          · intro hb
            obtain ⟨x, xs, hx, hxd⟩ := hs.2 hb
            have hne : ¬ ((a.now : Int) + t ≤ x.due) := by omega
            exact ⟨x, ins ⟨a.fresh, e, a.now + t⟩ xs, by simp only [aInsert, hx, ins, hne, if_false], hxd⟩
    | cancel w dev func k =>
      simp only [aExec] at h
      rcases h1 : aCancel { a with w := w } dev func with a1 | _ | _
      · rw [h1] at h
        refine ih a1 a' _ ?_ h
        unfold aCancel at h1
        split at h1
        · cases h1; exact hs
        · rename_i y ys hys
          simp only at hys
          split at h1
          · split at h1
            · cases h1
            · rename_i hb
              cases h1
              simp only [Bool.not_eq_true] at hb
              have := hs.1
              simp only [pend, hb, hys] at this
              refine ⟨?_, by simp [hb]⟩
              simp only [pend, hb]
              exact LInv.cancel (by simpa using this)
          · split at h1 <;> cases h1
            exact hs
      · rw [h1] at h; cases h
      · rw [h1] at h; cases h

theorem aAdvLoop_inv {W} (cb : Ev → W → Prog W) (n : Nat) : ∀ (a a' : Abs W),
    AInv a → a.busy = false → aAdvLoop cb n a = .ok a' → AInv a' := by
  induction n with
  | zero => intro a a' _ _ h; simp [aAdvLoop] at h
  | succ n ih =>
    intro a a' hi hb h
    unfold aAdvLoop at h
    split at h
    · cases h; exact hi
    · rename_i x xs hx
      split at h
      · rename_i hdue
        rcases h1 : aExec cb n { a with log := (a.now, .fire x.id x.ev) :: a.log, busy := true } (cb x.ev a.w) with a1 | _ | _
        · rw [h1] at h
          obtain ⟨hb1, hn1, ys, hys⟩ := aExec_busy cb n
            { a with log := (a.now, .fire x.id x.ev) :: a.log, busy := true } a1 _ x xs rfl hx hdue h1
          have h2 := aExec_inv cb n { a with log := (a.now, .fire x.id x.ev) :: a.log, busy := true } a1 _ ?_ h1
          · refine ih _ a' ?_ rfl h
            refine ⟨?_, by simp⟩
            have := h2.1
            simp only [pend, hb1] at this ⊢
            simpa using this
          · have := hi.1
            simp only [pend, hb, hx] at this
            refine ⟨?_, fun _ => ⟨x, xs, hx, hdue⟩⟩
            simp only [pend, hx, if_true, List.tail_cons]
            exact LInv.fire (by simpa using this) hdue
        · rw [h1] at h; cases h
        · rw [h1] at h; cases h
      · cases h; exact hi

theorem aRun_inv {W} (cb : Ev → W → Prog W) (n : Nat) (ops : List (Op W)) : ∀ (a a' : Abs W),
    AInv a → a.busy = false → (∀ x ∈ a.items, (a.now : Int) < x.due) →
    aRun cb n a ops = .ok a' →
    AInv a' ∧ a'.busy = false ∧ (∀ x ∈ a'.items, (a'.now : Int) < x.due) := by
  induction ops with
  | nil => intro a a' hi hb hgt h; cases h; exact ⟨hi, hb, hgt⟩
  | cons op ops ih =>
    intro a a' hi hb hgt h
    have hsort : a.items.Pairwise (fun x y => x.due ≤ y.due) := by
      have := hi.1.sorted
      simp only [pend, hb] at this
      refine List.Pairwise.imp ?_ this
      intro x y h; omega
    cases op with
    | code p =>
      simp only [aRun] at h
      rcases h1 : aExec cb n a (p a.w) with a1 | _ | _
      · rw [h1] at h
        obtain ⟨-, hb', hg⟩ := aExec_gt cb n a a1 _ (fun _ => False) (fun x hx => Or.inr (hgt x hx)) h1
        exact ih a1 a' (aExec_inv cb n a a1 _ hi h1) (hb'.trans hb) (fun x hx => (hg x hx).resolve_left id) h
      · rw [h1] at h; cases h
      · rw [h1] at h; cases h
    | advance =>
      simp only [aRun] at h
      rcases h1 : aAdvance cb n a with a1 | _ | _
      · rw [h1] at h
        obtain ⟨-, hb', hg⟩ := aAdvance_gt cb n a a1 hsort hgt hb h1
        have htick : AInv { a with now := a.now + 1 } := by
          refine ⟨?_, by simp [hb]⟩
          have := hi.1
          simp only [pend, hb] at this ⊢
          exact this.tick hgt
        have hi1 : AInv a1 := by
          unfold aAdvance at h1
          split at h1
          · cases h1; exact htick
          · exact aAdvLoop_inv cb n _ a1 htick hb h1
        exact ih a1 a' hi1 hb' hg h
      · rw [h1] at h; cases h
      · rw [h1] at h; cases h

theorem aInit_inv {W} (w : W) : AInv (aInit w) := by
  refine ⟨?_, by simp [aInit]⟩
  constructor <;> simp [aInit, pend, Ids, firings]

end Verif.Event
