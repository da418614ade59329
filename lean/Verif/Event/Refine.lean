import Verif.Event.Spec
import Mathlib.Data.List.Perm.Subperm
/- Refinement of the pointer model to the abstract scheduler. -/
namespace Verif.Event

@[simp] theorem Out.bind_ok {α β} (a : α) (f : α → Out β) : (Out.ok a >>= f) = f a := rfl
@[simp] theorem Out.bind_uaf {α β} (f : α → Out β) : ((Out.uaf : Out α) >>= f) = Out.uaf := rfl
@[simp] theorem Out.bind_fuel {α β} (f : α → Out β) : ((Out.fuel : Out α) >>= f) = Out.fuel := rfl
@[simp] theorem AOut.bind_ok {α β} (a : α) (f : α → AOut β) : (AOut.ok a >>= f) = f a := rfl
@[simp] theorem AOut.bind_bug {α β} (f : α → AOut β) : ((AOut.bug : AOut α) >>= f) = AOut.bug := rfl
@[simp] theorem AOut.bind_fuel {α β} (f : α → AOut β) : ((AOut.fuel : AOut α) >>= f) = AOut.fuel := rfl

def hd : List Item → Option Nat → Option Nat
  | [], z => z
  | x :: _, _ => some x.id
def lst : List Item → Option Nat → Option Nat
  | [], z => z
  | x :: xs, _ => lst xs (some x.id)
def lstDue : List Item → Int → Int
  | [], b => b
  | x :: xs, _ => lstDue xs x.due

/-- `xs` is a doubly linked segment of `h` whose first `prev` is `p`, whose last `next` is `z`
and whose times are relative to `b`. -/
def Seg (h : Nat → Option Node) (p : Option Nat) (b : Int) : List Item → Option Nat → Prop
  | [], _ => True
  | x :: xs, z => h x.id = some ⟨hd xs z, p, x.due - b, x.ev⟩ ∧ Seg h (some x.id) x.due xs z

@[simp] theorem hd_nil (z) : hd [] z = z := rfl
@[simp] theorem hd_cons (x xs z) : hd (x :: xs) z = some x.id := rfl
theorem hd_append (xs ys z) : hd (xs ++ ys) z = hd xs (hd ys z) := by cases xs <;> rfl
theorem lst_append (xs ys z) : lst (xs ++ ys) z = lst ys (lst xs z) := by
  induction xs generalizing z <;> simp_all [lst]
theorem lstDue_append (xs ys b) : lstDue (xs ++ ys) b = lstDue ys (lstDue xs b) := by
  induction xs generalizing b <;> simp_all [lstDue]

theorem Seg_append {h p b xs ys z} :
    Seg h p b (xs ++ ys) z ↔ Seg h p b xs (hd ys z) ∧ Seg h (lst xs p) (lstDue xs b) ys z := by
  induction xs generalizing p b with
  | nil => simp [Seg, lst, lstDue]
  | cons x xs ih => simp [Seg, lst, lstDue, hd_append, ih, and_assoc]

theorem Seg_upd {h p b xs z q v} (hq : q ∉ xs.map Item.id) (hs : Seg h p b xs z) :
    Seg (upd h q v) p b xs z := by
  induction xs generalizing p b with
  | nil => trivial
  | cons x xs ih =>
    simp only [List.map_cons, List.mem_cons, not_or] at hq
    refine ⟨?_, ih hq.2 hs.2⟩
    simp only [upd, if_neg (Ne.symm hq.1), hs.1]

theorem upd_same (h p v) : upd h p v p = v := by simp [upd]
theorem upd_ne {h p v q} (hq : q ≠ p) : upd h p v q = h q := by simp [upd, hq]

/-- ids in `xs` are distinct -/
def Ids (xs : List Item) : Prop := (xs.map Item.id).Nodup

/-- Concrete state `s` represents abstract state `a`. -/
structure Rep {W} (s : St W) (a : Abs W) : Prop where
  seg : Seg s.heap none a.now a.items none
  head : s.head = hd a.items none
  tail : s.tail = lst a.items none
  ids : Ids a.items
  lt : ∀ x ∈ a.items, x.id < a.fresh
  leak : ∀ p, p ∉ a.items.map Item.id → s.heap p = none
  fresh : s.fresh = a.fresh
  w : s.w = a.w
  now : s.now = a.now
  log : s.log = a.log
  sorted : a.items.Pairwise (fun x y => x.due ≤ y.due)
  ge : ∀ x ∈ a.items, (a.now : Int) ≤ x.due

theorem Rep.len {W} {s : St W} {a : Abs W} (r : Rep s a) : a.items.length ≤ a.fresh := by
  have h1 : (a.items.map Item.id) ⊆ List.range a.fresh := by
    intro p hp
    simp only [List.mem_map] at hp
    obtain ⟨x, hx, rfl⟩ := hp
    simpa using r.lt x hx
  have := (List.subperm_of_subset r.ids h1).length_le
  simpa using this

theorem lst_mem {xs : List Item} {z q} (h : lst xs z = some q) : q ∈ xs.map Item.id ∨ (xs = [] ∧ z = some q) := by
  induction xs generalizing z with
  | nil => right; simpa [lst] using h
  | cons x xs ih =>
    left
    rcases ih h with h | ⟨h1, h2⟩
    · simp [List.mem_map] at h ⊢; right; exact h
    · simp only [Option.some.injEq] at h2; simp [h2]

/-- Changing the `next` of the last record of a segment. -/
theorem Seg_setLast {h p b y z z'} (xs : List Item) (hn : Ids (xs ++ [y])) (n : Node)
    (hs : Seg h p b (xs ++ [y]) z) (hy : h y.id = some n) :
    Seg (upd h y.id (some { n with next := z' })) p b (xs ++ [y]) z' := by
  rw [Seg_append] at hs ⊢
  have hy' : y.id ∉ xs.map Item.id := by
    simp only [Ids, List.map_append, List.map_cons, List.map_nil] at hn
    rw [List.nodup_append] at hn
    intro hm
    exact hn.2.2 _ hm _ (by simp) rfl
  refine ⟨Seg_upd hy' hs.1, ?_, trivial⟩
  have := hs.2.1
  rw [hy] at this
  simp only [Option.some.injEq] at this
  subst this
  simp [upd_same]

def setTime (h : Nat → Option Node) (p : Nat) (n : Node) (t : Int) := upd h p (some { n with time := t })

theorem not_mem_ids_append {q : Nat} {xs ys : List Item} :
    q ∉ (xs ++ ys).map Item.id ↔ q ∉ xs.map Item.id ∧ q ∉ ys.map Item.id := by
  simp [not_or]

theorem ids_append {xs ys : List Item} : Ids (xs ++ ys) ↔ Ids xs ∧ Ids ys ∧
    ∀ q, q ∈ xs.map Item.id → q ∉ ys.map Item.id := by
  unfold Ids
  rw [List.map_append, List.nodup_append]
  constructor
  · rintro ⟨a, b, c⟩; exact ⟨a, b, fun q hq hq' => c q hq q hq' rfl⟩
  · rintro ⟨a, b, c⟩; exact ⟨a, b, fun q hq r hr e => c q hq (e ▸ hr)⟩

theorem ids_cons {x : Item} {xs : List Item} : Ids (x :: xs) ↔ x.id ∉ xs.map Item.id ∧ Ids xs := by
  unfold Ids; simp

/-- The insertion branch of `addLoop`. -/
theorem addLoop_front {W} (n : Nat) (s : St W) (pre : List Item) (x : Item) (xs : List Item)
    (b : Int) (new : Nat) (e : Ev) (d : Int)
    (hs : Seg s.heap none b (pre ++ x :: xs) none)
    (hids : Ids (pre ++ x :: xs))
    (hnew : new ∉ (pre ++ x :: xs).map Item.id)
    (hnn : s.heap new = some ⟨none, none, d - lstDue pre b, e⟩)
    (htail : s.tail = lst (pre ++ x :: xs) none)
    (hhead : s.head = hd (pre ++ x :: xs) none)
    (hd' : d ≤ x.due) :
    ∃ s', addLoop (n+1) s new x.id = .ok s' ∧
      Seg s'.heap none b (pre ++ ⟨new, e, d⟩ :: x :: xs) none ∧
      s'.tail = lst (pre ++ ⟨new, e, d⟩ :: x :: xs) none ∧
      s'.head = hd (pre ++ ⟨new, e, d⟩ :: x :: xs) none ∧
      (∀ p, p ∉ (pre ++ x :: xs).map Item.id → p ≠ new → s'.heap p = s.heap p) ∧
      s' = { s with heap := s'.heap, tail := s'.tail, head := s'.head } := by
  have hs2 := (Seg_append.1 hs).2
  have hs1 := (Seg_append.1 hs).1
  have hx := hs2.1
  have hxs := hs2.2
  obtain ⟨hn1, hn2⟩ := not_mem_ids_append.1 hnew
  simp only [List.map_cons, List.mem_cons, not_or] at hn2
  obtain ⟨hi1, hi2, hi3⟩ := ids_append.1 hids
  obtain ⟨hi4, hi5⟩ := ids_cons.1 hi2
  have hle : d - lstDue pre b ≤ x.due - lstDue pre b := by omega
  have hxpre : x.id ∉ pre.map Item.id := fun h => hi3 _ h (by simp)
  have hne : x.id ≠ new := fun h => hn2.1 h.symm
  have hne' : new ≠ x.id := hn2.1
  rcases List.eq_nil_or_concat' pre with rfl | ⟨pre', q, rfl⟩
  · simp only [lst, lstDue, List.nil_append] at *
    refine ⟨{ s with
      heap := upd (upd s.heap x.id (some ⟨hd xs none, some new, x.due - d, x.ev⟩)) new
        (some ⟨some x.id, none, d - b, e⟩), head := some new }, ?_, ?_, ?_, ?_, ?_, ?_⟩
    · simp [addLoop, load, modify, hnn, hx, hd', upd, hne, hne']
      funext p
      by_cases h1 : p = new
      · subst h1; simp [upd, hne']
      · by_cases h2 : p = x.id
        · subst h2; simp [upd, h1]; omega
        · simp [upd, h1, h2]
    · refine ⟨by simp [upd], ?_, ?_⟩
      · simp [upd, hne]
      · exact Seg_upd hn2.2 (Seg_upd hi4 hxs)
    · simpa [lst] using htail
    · simp [hd_nil, hd_cons]
    · intro p hp1 hp2
      simp only [List.map_cons, List.mem_cons, not_or] at hp1
      simp [upd, hp1, hp2]
    · rfl
  · have hq := (Seg_append.1 hs1).2.1
    have hpre' := (Seg_append.1 hs1).1
    obtain ⟨hj1, hj2, hj3⟩ := ids_append.1 hi1
    have hqx : q.id ≠ x.id := fun h => hxpre (by simp [h])
    have hqn : q.id ≠ new := fun h => hn1 (by simp [h])
    have hqxs : q.id ∉ xs.map Item.id := fun h => hi3 q.id (by simp) (by simp at h ⊢; right; exact h)
    have hqp : q.id ∉ pre'.map Item.id := fun h => hj3 _ h (by simp)
    have hnp : new ∉ pre'.map Item.id := fun h => hn1 (by simp at h ⊢; left; exact h)
    have hxp : x.id ∉ pre'.map Item.id := fun h => hxpre (by simp at h ⊢; left; exact h)
    simp only [lst_append, lstDue_append, lst, lstDue] at hx hnn hle hxs
    simp only [hd_nil, hd_cons] at hq
    refine ⟨{ s with
      heap := upd (upd (upd s.heap x.id (some ⟨hd xs none, some new, x.due - d, x.ev⟩)) new
        (some ⟨some x.id, some q.id, d - q.due, e⟩)) q.id
        (some ⟨some new, lst pre' none, q.due - lstDue pre' b, q.ev⟩) }, ?_, ?_, ?_, ?_, ?_, ?_⟩
    · simp [addLoop, load, modify, hnn, hx, hd', hle, upd, hne, hne', hqx, hqn, hqx.symm, hqn.symm, hq]
      funext p
      by_cases h1 : p = new
      · subst h1; simp [upd, hne', hqn.symm]
      · by_cases h2 : p = x.id
        · subst h2; simp [upd, h1, hqx.symm]; omega
        · simp [upd, h1, h2]
    · rw [List.append_assoc, Seg_append]
      refine ⟨Seg_upd hqp (Seg_upd hnp (Seg_upd hxp (by simpa [hd_nil, hd_cons] using hpre'))), ?_, ?_, ?_, ?_⟩
      · simp [upd]
      · simp [upd, hqn.symm]
      · simp [upd, hne, hqx.symm]
      · exact Seg_upd hqxs (Seg_upd hn2.2 (Seg_upd hi4 hxs))
    · simpa [lst, lst_append] using htail
    · simpa [hd_append] using hhead
    · intro p hp1 hp2
      simp only [List.map_cons, List.map_append, List.mem_append, List.mem_cons, not_or] at hp1
      simp [upd, hp1, hp2]
    · rfl

/-- What `addLoop` leaves in the heap. -/
theorem addLoop_spec {W} (xs : List Item) :
    ∀ (n : Nat) (s : St W) (pre : List Item) (x : Item) (b : Int) (new : Nat) (e : Ev) (d : Int),
    xs.length < n →
    Seg s.heap none b (pre ++ x :: xs) none →
    Ids (pre ++ x :: xs) →
    new ∉ (pre ++ x :: xs).map Item.id →
    s.heap new = some ⟨none, none, d - lstDue pre b, e⟩ →
    (∀ y ∈ pre, y.due < d) →
    s.tail = lst (pre ++ x :: xs) none →
    s.head = hd (pre ++ x :: xs) none →
    ∃ s', addLoop n s new x.id = .ok s' ∧
      Seg s'.heap none b (pre ++ ins ⟨new, e, d⟩ (x :: xs)) none ∧
      s'.tail = lst (pre ++ ins ⟨new, e, d⟩ (x :: xs)) none ∧
      s'.head = hd (pre ++ ins ⟨new, e, d⟩ (x :: xs)) none ∧
      (∀ p, p ∉ (pre ++ x :: xs).map Item.id → p ≠ new → s'.heap p = s.heap p) ∧
      s' = { s with heap := s'.heap, tail := s'.tail, head := s'.head } := by
  induction xs with
  | nil =>
    intro n s pre x b new e d hn hs hids hnew hnn hpre htail hhead
    obtain ⟨n, rfl⟩ : ∃ m, n = m + 1 := ⟨n - 1, by simp at hn; omega⟩
    by_cases hle : d ≤ x.due
    · simp only [ins, hle, if_true]
      exact addLoop_front n s pre x [] b new e d hs hids hnew hnn htail hhead hle
    · obtain ⟨hs1, hx, -⟩ := Seg_append.1 hs
      have hnle : ¬ d - lstDue pre b ≤ x.due - lstDue pre b := by omega
      have hx' : x.id ≠ new := fun h => hnew (by simp [h])
      have hnx : x.id ∉ pre.map Item.id := fun h => (ids_append.1 hids).2.2 _ h (by simp)
      have hnp : new ∉ pre.map Item.id := fun h => hnew (by simp at h ⊢; left; exact h)
      simp only [lst_append, lst] at htail
      refine ⟨{ s with
        heap := upd (upd s.heap new (some ⟨none, some x.id, d - x.due, e⟩)) x.id
          (some ⟨some new, lst pre none, x.due - lstDue pre b, x.ev⟩)
        tail := some new }, ?_, ?_, ?_, ?_, ?_, ?_⟩
      · simp [addLoop, load, modify, hnn, hx, hle, hnle, htail, upd, hx', hx'.symm]
        funext p
        by_cases h1 : p = new
        · subst h1; simp [upd, hx'.symm]; omega
        · by_cases h2 : p = x.id <;> simp [upd, h1, h2]
      · simp only [ins, hle, if_false]
        rw [Seg_append]
        refine ⟨Seg_upd hnx (Seg_upd hnp (by simpa [hd_nil, hd_cons] using hs1)), ?_, ?_, trivial⟩
        · simp [upd]
        · simp [upd, hx'.symm]
      · simp [ins, hle, lst_append, lst]
      · simpa [ins, hle, hd_append] using hhead
      · intro p hp1 hp2
        simp only [List.map_cons, List.map_append, List.mem_append, List.mem_cons, not_or] at hp1
        simp [upd, hp1, hp2]
      · rfl
  | cons y ys ih =>
    intro n s pre x b new e d hn hs hids hnew hnn hpre htail hhead
    obtain ⟨n, rfl⟩ : ∃ m, n = m + 1 := ⟨n - 1, by simp at hn; omega⟩
    by_cases hle : d ≤ x.due
    · simp only [ins, hle, if_true]
      exact addLoop_front n s pre x (y :: ys) b new e d hs hids hnew hnn htail hhead hle
    · obtain ⟨hs1, hx, -⟩ := Seg_append.1 hs
      have hnle : ¬ d - lstDue pre b ≤ x.due - lstDue pre b := by omega
      have := ih n { s with heap := upd s.heap new (some ⟨none, none, d - x.due, e⟩) } (pre ++ [x]) y b new e d
        (by simp at hn ⊢; omega) (by simpa using Seg_upd hnew hs) (by simpa using hids)
        (by simpa using hnew) (by simp [upd, lstDue_append, lstDue])
        (by intro z hz; simp at hz; rcases hz with hz | rfl; exact hpre z hz; omega)
        (by simpa using htail) (by simpa using hhead)
      obtain ⟨s', h1, h2, h3, h4, h5, h6⟩ := this
      refine ⟨s', ?_, ?_, ?_, ?_, ?_, ?_⟩
      · rw [← h1]
        simp [addLoop, load, modify, hnn, hx, hle, hnle]
        congr 2
        funext p
        simp only [upd]
        split
        · simp; omega
        · rfl
      · simpa [ins, hle] using h2
      · simpa [ins, hle] using h3
      · simpa [ins, hle] using h4
      · intro p hp1 hp2
        have := h5 p (by simpa using hp1) hp2
        simpa [upd, hp2] using this
      · exact h6

theorem mem_ins {x y : Item} {xs : List Item} : y ∈ ins x xs ↔ y = x ∨ y ∈ xs := by
  induction xs with
  | nil => simp [ins]
  | cons z zs ih =>
    simp only [ins]
    split
    · simp
    · simp only [List.mem_cons, ih]; tauto

theorem ins_perm (x : Item) (xs : List Item) : (ins x xs).Perm (x :: xs) := by
  induction xs with
  | nil => simp [ins]
  | cons z zs ih =>
    simp only [ins]
    split
    · exact List.Perm.refl _
    · exact (List.Perm.cons z ih).trans (List.Perm.swap x z zs)

theorem ins_sorted {x : Item} {xs : List Item} (h : xs.Pairwise (fun x y => x.due ≤ y.due)) :
    (ins x xs).Pairwise (fun x y => x.due ≤ y.due) := by
  induction xs with
  | nil => simp [ins]
  | cons z zs ih =>
    simp only [ins]
    rw [List.pairwise_cons] at h
    split
    · rename_i hle
      rw [List.pairwise_cons]
      refine ⟨?_, List.pairwise_cons.2 h⟩
      intro y hy
      rcases List.mem_cons.1 hy with rfl | hy
      · exact hle
      · have := h.1 y hy; omega
    · rw [List.pairwise_cons]
      refine ⟨?_, ih h.2⟩
      intro y hy
      rcases mem_ins.1 hy with rfl | hy
      · omega
      · exact h.1 y hy

theorem insertEvent_rep {W} {s : St W} {a : Abs W} (r : Rep s a) (e : Ev) (t : Int) (ht : 0 < t) :
    ∃ s', insertEvent s e t = .ok s' ∧ Rep s' (aInsert a e t) := by
  have hnew : a.fresh ∉ a.items.map Item.id := by
    intro h
    simp only [List.mem_map] at h
    obtain ⟨x, hx, h⟩ := h
    have := r.lt x hx
    omega
  have hperm : (ins ⟨a.fresh, e, a.now + t⟩ a.items).Perm (⟨a.fresh, e, a.now + t⟩ :: a.items) := ins_perm _ _
  have hids : Ids (ins ⟨a.fresh, e, a.now + t⟩ a.items) := by
    unfold Ids
    rw [(hperm.map Item.id).nodup_iff]
    simp only [List.map_cons, List.nodup_cons]
    exact ⟨hnew, r.ids⟩
  have hlt : ∀ x ∈ ins ⟨a.fresh, e, a.now + t⟩ a.items, x.id < a.fresh + 1 := by
    intro x hx
    rcases mem_ins.1 hx with rfl | hx
    · simp
    · have := r.lt x hx; omega
  have hge : ∀ x ∈ ins ⟨a.fresh, e, a.now + t⟩ a.items, (a.now : Int) ≤ x.due := by
    intro x hx
    rcases mem_ins.1 hx with rfl | hx
    · simp; omega
    · exact r.ge x hx
  have hmem : ∀ p, p ∉ (ins ⟨a.fresh, e, a.now + t⟩ a.items).map Item.id ↔
      p ≠ a.fresh ∧ p ∉ a.items.map Item.id := by
    intro p
    rw [(hperm.map Item.id).mem_iff]
    simp [not_or]
  rcases hit : a.items with _ | ⟨x, xs⟩
  · refine ⟨{ s with
        heap := upd s.heap s.fresh (some { next := none, prev := none, time := t, ev := e })
        head := some s.fresh, tail := some s.fresh, fresh := s.fresh + 1
        log := (s.now, .sched s.fresh e t) :: s.log }, by simp only [insertEvent, r.head, hit, hd_nil], ?_⟩
    have hf := r.fresh
    constructor <;> simp only [aInsert, hit, ins] <;> try simp [Seg, lst, Ids, upd, hf, r.w, r.now, r.log]
    · omega
    · intro p hp
      rw [if_neg hp]
      exact r.leak p (by simp [hit])
    · omega
  · have hhead : s.head = some x.id := by simp [r.head, hit]
    have hlen := r.len
    have key := addLoop_spec xs (s.fresh + 1)
      { s with
        heap := upd s.heap s.fresh (some { next := none, prev := none, time := t, ev := e })
        fresh := s.fresh + 1
        log := (s.now, .sched s.fresh e t) :: s.log } [] x a.now s.fresh e (a.now + t)
      (by rw [hit] at hlen; simp at hlen; have := r.fresh; omega)
      (by have := r.seg; rw [hit] at this; rw [r.fresh]; exact Seg_upd (by rw [hit] at hnew; simpa using hnew) this)
      (by have := r.ids; rw [hit] at this; simpa using this)
      (by rw [r.fresh]; rw [hit] at hnew; simpa using hnew)
      (by simp [upd, lstDue]; omega)
      (by simp)
      (by have := r.tail; rw [hit] at this; simpa using this)
      (by have := r.head; rw [hit] at this; simpa using this)
    obtain ⟨s', h1, h2, h3, h4, h5, h6⟩ := key
    refine ⟨s', ?_, ?_⟩
    · simp only [insertEvent]
      rw [hhead] at h1 ⊢
      exact h1
    · simp only [List.nil_append] at *
      have hf := r.fresh
      rw [hf, ← hit] at h2 h3 h4
      rw [hf, ← hit] at h5
      constructor
      · exact h2
      · exact h4
      · exact h3
      · exact hids
      · exact hlt
      · intro p hp
        obtain ⟨hp1, hp2⟩ := (hmem p).1 hp
        rw [h5 p hp2 hp1]
        simp only [upd, hp1, if_false]
        exact r.leak p hp2
      · rw [h6]; simp [aInsert, hf]
      · rw [h6]; exact r.w
      · rw [h6]; exact r.now
      · rw [h6]; simp [aInsert, r.now, r.log, hf]
      · exact ins_sorted r.sorted
      · exact hge

theorem cancelLoop_miss {W} (dev func : Nat) (xs : List Item) :
    ∀ (n : Nat) (s : St W) (p : Option Nat) (b : Int) (x : Item), xs.length < n →
    Seg s.heap p b (x :: xs) none → (∀ y ∈ x :: xs, y.hits dev func = false) →
    cancelLoop n s dev func x.id = .ok s := by
  induction xs with
  | nil =>
    intro n s p b x hn hs hm
    obtain ⟨n, rfl⟩ : ∃ m, n = m + 1 := ⟨n - 1, by simp at hn; omega⟩
    have := hm x (by simp)
    simp [Item.hits] at this
    simp only [cancelLoop, load, hs.1, Out.bind_ok, hd_nil]
    rw [if_neg (fun h => this h.1 h.2)]
  | cons y ys ih =>
    intro n s p b x hn hs hm
    obtain ⟨n, rfl⟩ : ∃ m, n = m + 1 := ⟨n - 1, by simp at hn; omega⟩
    have := hm x (by simp)
    simp [Item.hits] at this
    have h2 := ih n s _ _ y (by simp at hn; omega) hs.2 (fun z hz => hm z (by simp at hz ⊢; right; exact hz))
    simp only [cancelLoop, load, hs.1, Out.bind_ok, hd_cons]
    rw [if_neg (fun h => this h.1 h.2)]
    exact h2

theorem cancelEvent_rep {W} {s : St W} {a a' : Abs W} (r : Rep s a) (dev func : Nat)
    (hc : aCancel a dev func = .ok a') :
    ∃ s', cancelEvent s dev func = .ok s' ∧ Rep s' a' := by
  unfold aCancel at hc
  rcases hit : a.items with _ | ⟨x, xs⟩
  · simp only [hit] at hc
    cases hc
    exact ⟨s, by simp [cancelEvent, r.head, hit], r⟩
  · simp only [hit] at hc
    have hseg := r.seg
    rw [hit] at hseg
    have hlen := r.len
    rw [hit] at hlen
    have hfr := r.fresh
    split at hc
    · rename_i hh
      split at hc
      · cases hc
      · cases hc
        have hh' : x.ev.dev = dev ∧ x.ev.func = func := by simpa [Item.hits] using hh
        obtain ⟨n, hn⟩ : ∃ m, s.fresh = m + 1 := ⟨s.fresh - 1, by simp at hlen; omega⟩
        have hids := r.ids
        rw [hit, ids_cons] at hids
        have hlt := r.lt; have hsort := r.sorted; have hge := r.ge; have hleak := r.leak; have htail := r.tail
        rw [hit] at hlt hsort hge hleak htail
        rcases xs with _ | ⟨y, ys⟩
        · refine ⟨{ s with heap := upd s.heap x.id none, head := none, tail := none, log := (s.now, .cancel x.id) :: s.log }, ?_, ?_⟩
          · simp [cancelEvent, r.head, hit, hn, cancelLoop, load, hseg.1, hh', cancelFound, free]
          · constructor <;> simp [Seg, lst, Ids, r.w, r.now, r.log, r.fresh]
            intro p
            simp only [upd]
            split
            · rfl
            · rename_i hp; exact hleak p (by simp; exact hp)
        · have hxy : x.id ≠ y.id := fun h => hids.1 (by simp [h])
          have hyy := (ids_cons.1 hids.2).1
          have hxys : x.id ∉ ys.map Item.id := fun h => hids.1 (by simp at h ⊢; right; exact h)
          refine ⟨{ s with heap := upd (upd s.heap y.id (some ⟨hd ys none, none, y.due - a.now, y.ev⟩)) x.id none, head := some y.id, log := (s.now, .cancel x.id) :: s.log }, ?_, ?_⟩
          · simp [cancelEvent, r.head, hit, hn, cancelLoop, load, modify, hseg.1, hseg.2.1, hh', cancelFound, free, upd, hxy, hxy.symm]
            funext p
            by_cases h1 : p = y.id
            · subst h1; simp [upd, hxy.symm]; omega
            · by_cases h2 : p = x.id
              · subst h2; simp [upd]
              · simp [upd, h1, h2]
          · constructor
            · refine ⟨by simp [upd, hxy.symm], ?_⟩
              exact Seg_upd hxys (Seg_upd hyy hseg.2.2)
            · simp
            · simpa [lst] using htail
            · exact hids.2
            · intro z hz; exact hlt z (by simp at hz ⊢; right; exact hz)
            · intro p hp
              simp only [upd]
              split
              · rfl
              · rename_i hpx
                split
                · rename_i hpy; exact absurd hpy (by simp at hp; exact hp.1)
                · exact hleak p (by simp at hp ⊢; exact ⟨hpx, hp⟩)
            · exact r.fresh
            · exact r.w
            · exact r.now
            · simp [r.now, r.log]
            · exact (List.pairwise_cons.1 hsort).2
            · intro z hz; exact hge z (by simp at hz ⊢; right; exact hz)
    · rename_i hh
      split at hc
      · cases hc
      · rename_i hany
        cases hc
        refine ⟨s, ?_, r⟩
        simp only [cancelEvent, r.head, hit, hd_cons]
        apply cancelLoop_miss dev func xs s.fresh s none a.now x (by simp at hlen; omega) hseg
        intro y hy
        rcases List.mem_cons.1 hy with rfl | hy
        · simpa using hh
        · simp at hany; exact hany y hy

/-- A concrete outcome matches an abstract one. -/
def Match {W} (o : Out (St W)) (ao : AOut (Abs W)) : Prop :=
  match ao with
  | .ok a => ∃ s, o = .ok s ∧ Rep s a
  | .fuel => o = .fuel
  | .bug => True

theorem Match.bind {W} {o : Out (St W)} {ao : AOut (Abs W)} {f : St W → Out (St W)} {g : Abs W → AOut (Abs W)}
    (h : Match o ao) (hfg : ∀ s a, Rep s a → ao = .ok a → Match (f s) (g a)) : Match (o >>= f) (ao >>= g) := by
  cases ao with
  | ok a => obtain ⟨s, rfl, r⟩ := h; simpa using hfg s a r rfl
  | fuel => simp [Match] at h; subst h; simp [Match]
  | bug => simp [Match]

theorem Rep.logged {W} {s : St W} {a : Abs W} (r : Rep s a) (e : Entry) :
    Rep { s with log := (s.now, e) :: s.log } { a with log := (a.now, e) :: a.log } := by
  constructor <;> first | exact r.seg | exact r.head | exact r.tail | exact r.ids | exact r.lt | exact r.leak | exact r.fresh | exact r.w | exact r.now | exact r.sorted | exact r.ge | skip
  simp [r.now, r.log]

theorem Rep.setW {W} {s : St W} {a : Abs W} (r : Rep s a) (w : W) :
    Rep { s with w := w } { a with w := w } := by
  constructor <;> first | exact r.seg | exact r.head | exact r.tail | exact r.ids | exact r.lt | exact r.leak | exact r.fresh | rfl | exact r.now | exact r.log | exact r.sorted | exact r.ge

theorem Rep.setBusy {W} {s : St W} {a : Abs W} (r : Rep s a) (b : Bool) :
    Rep s { a with busy := b } := by
  constructor <;> first | exact r.seg | exact r.head | exact r.tail | exact r.ids | exact r.lt | exact r.leak | exact r.fresh | exact r.w | exact r.now | exact r.log | exact r.sorted | exact r.ge

theorem exec_rep {W} (cb : Ev → W → Prog W) (n : Nat) : ∀ (s : St W) (a : Abs W) (p : Prog W), Rep s a →
    Match (exec cb n s p) (aExec cb n a p) := by
  induction n with
  | zero => intro s a p r; simp [exec, aExec, Match]
  | succ n ih =>
    intro s a p r
    cases p with
    | ret w => exact ⟨_, rfl, r.setW w⟩
    | sched w e t k =>
      simp only [exec, aExec]
      have hk : ∀ s' a', Rep s' a' → Match (exec cb n s' (k s'.w)) (aExec cb n a' (k a'.w)) := by
        intro s' a' r'
        have := r'.w
        rw [this]
        exact ih _ _ _ r'
      split
      · exact Match.bind (ih _ _ _ ((r.setW w).logged _)) (fun s' a' r' _ => hk s' a' r')
      · split
        · trivial
        · obtain ⟨s', h1, h2⟩ := insertEvent_rep (r.setW w) e t (by omega)
          rw [h1]
          exact hk s' _ h2
    | cancel w dev func k =>
      simp only [exec, aExec]
      refine Match.bind ?_ ?_
      · rcases hc : aCancel { a with w := w } dev func with a' | _ | _
        · obtain ⟨s', h1, h2⟩ := cancelEvent_rep (r.setW w) dev func hc
          exact ⟨s', h1, h2⟩
        · trivial
        · exfalso
          unfold aCancel at hc
          split at hc
          · cases hc
          · split at hc
            · split at hc <;> cases hc
            · split at hc <;> cases hc
      · intro s' a' r' _
        have := r'.w
        rw [this]
        exact ih _ _ _ r'

theorem aCancel_busy {W} {a a' : Abs W} {dev func : Nat} (hb : a.busy = true) (h : aCancel a dev func = .ok a') : a' = a := by
  unfold aCancel at h
  split at h
  · cases h; rfl
  · rw [hb] at h
    simp only [if_true] at h
    split at h
    · cases h
    · split at h <;> cases h; rfl

/-- While a callback runs its own item stays at the front. -/
theorem aExec_busy {W} (cb : Ev → W → Prog W) (n : Nat) : ∀ (a a' : Abs W) (p : Prog W) (x : Item) (xs : List Item),
    a.busy = true → a.items = x :: xs → x.due = a.now → aExec cb n a p = .ok a' →
    a'.busy = true ∧ a'.now = a.now ∧ ∃ ys, a'.items = x :: ys := by
  induction n with
  | zero => intro a a' p x xs _ _ _ h; simp [aExec] at h
  | succ n ih =>
    intro a a' p x xs hb hx hd h
    cases p with
    | ret w => simp only [aExec, AOut.ok.injEq] at h; subst h; exact ⟨hb, rfl, xs, hx⟩
    | sched w e t k =>
      simp only [aExec] at h
      split at h
      · rcases h1 : aExec cb n { a with w := w, log := (a.now, .imm e) :: a.log } (cb e w) with a1 | _ | _
        · rw [h1] at h
          obtain ⟨b1, n1, ys, i1⟩ := ih { a with w := w, log := (a.now, .imm e) :: a.log } a1 _ x xs hb hx hd h1
          obtain ⟨b2, n2, zs, i2⟩ := ih a1 a' _ x ys b1 i1 (by rw [n1]; exact hd) h
          exact ⟨b2, n2.trans n1, zs, i2⟩
        · rw [h1] at h; cases h
        · rw [h1] at h; cases h
      · split at h
        · cases h
        · rename_i h0 hneg
          have hne : ¬ ((a.now : Int) + t ≤ x.due) := by omega
          obtain ⟨b2, n2, zs, i2⟩ := ih _ a' _ x (ins ⟨a.fresh, e, a.now + t⟩ xs) (by simpa [aInsert] using hb)
            (by simp [aInsert, hx, ins, hne]) (by simpa [aInsert] using hd) h
          exact ⟨b2, n2, zs, i2⟩
    | cancel w dev func k =>
      simp only [aExec] at h
      rcases h1 : aCancel { a with w := w } dev func with a1 | _ | _
      · rw [h1] at h
        have := aCancel_busy (a := { a with w := w }) hb h1
        subst this
        exact ih { a with w := w } a' _ x xs hb hx hd h
      · rw [h1] at h; cases h
      · rw [h1] at h; cases h

/-- Removing the fired head record. -/
theorem Rep.pop {W} {s : St W} {a : Abs W} (r : Rep s a) (x : Item) (xs : List Item) (hx : a.items = x :: xs)
    (hdue : x.due = a.now) :
    s.heap x.id = some ⟨hd xs none, none, 0, x.ev⟩ ∧
    Rep (match xs with
      | [] => { s with heap := upd s.heap x.id none, head := none, tail := none }
      | y :: ys => { s with heap := upd (upd s.heap x.id none) y.id (some ⟨hd ys none, none, y.due - a.now, y.ev⟩),
                            head := some y.id })
      { a with items := xs, busy := false } := by
  have hseg := r.seg
  have hids := r.ids
  have hlt := r.lt; have hsort := r.sorted; have hge := r.ge; have hleak := r.leak; have htail := r.tail
  rw [hx] at hseg hids hlt hsort hge hleak htail
  rw [ids_cons] at hids
  refine ⟨by have := hseg.1; rw [this]; simp; omega, ?_⟩
  rcases xs with _ | ⟨y, ys⟩
  · constructor <;> simp [Seg, lst, Ids, r.w, r.now, r.log, r.fresh]
    intro p
    simp only [upd]
    split
    · rfl
    · rename_i hp; exact hleak p (by simp; exact hp)
  · have hxy : x.id ≠ y.id := fun h => hids.1 (by simp [h])
    have hyy := (ids_cons.1 hids.2).1
    have hxys : x.id ∉ ys.map Item.id := fun h => hids.1 (by simp at h ⊢; right; exact h)
    constructor
    · refine ⟨by simp [upd], ?_⟩
      exact Seg_upd hyy (Seg_upd hxys hseg.2.2)
    · simp
    · simpa [lst] using htail
    · exact hids.2
    · intro z hz; exact hlt z (by simp at hz ⊢; right; exact hz)
    · intro p hp
      simp only [upd]
      split
      · rename_i hpy; exact absurd hpy (by simp at hp; exact hp.1)
      · split
        · rfl
        · rename_i hpx; exact hleak p (by simp at hp ⊢; exact ⟨hpx, hp⟩)
    · exact r.fresh
    · exact r.w
    · exact r.now
    · exact r.log
    · exact (List.pairwise_cons.1 hsort).2
    · intro z hz; exact hge z (by simp at hz ⊢; right; exact hz)

theorem advLoop_rep {W} (cb : Ev → W → Prog W) (n : Nat) : ∀ (s : St W) (a : Abs W), Rep s a →
    Match (advLoop cb n s s.head) (aAdvLoop cb n a) := by
  induction n with
  | zero => intro s a r; simp [advLoop, aAdvLoop, Match]
  | succ n ih =>
    intro s a r
    rcases hit : a.items with _ | ⟨x, xs⟩
    · have hh : s.head = none := by rw [r.head, hit, hd_nil]
      rw [hh]
      simp only [advLoop, aAdvLoop, hit]
      exact ⟨s, rfl, r⟩
    · have hh : s.head = some x.id := by rw [r.head, hit, hd_cons]
      have hseg := r.seg
      rw [hit] at hseg
      rw [hh]
      simp only [advLoop, aAdvLoop, hit, load, hseg.1, Out.bind_ok]
      by_cases hdue : x.due = a.now
      · have h0 : x.due - (a.now : Int) = 0 := by omega
        rw [if_pos h0, if_pos hdue]
        have hw := r.w
        rw [show cb x.ev s.w = cb x.ev a.w by rw [hw], ← hit]
        have r1 := (r.logged (.fire x.id x.ev)).setBusy true
        refine Match.bind (exec_rep cb n _ _ _ r1) ?_
        intro s' a' r' hok
        obtain ⟨hb, hnow, ys, hys⟩ := aExec_busy cb n
          { a with log := (a.now, .fire x.id x.ev) :: a.log, busy := true } a' _ x xs rfl hit hdue hok
        have hdue' : x.due = a'.now := by rw [hnow]; exact hdue
        obtain ⟨hnode, rpop⟩ := r'.pop x ys hys hdue'
        simp only [hnode, Out.bind_ok, hys, List.tail_cons, free]
        rcases ys with _ | ⟨y, ys⟩
        · simpa [hd_nil] using ih _ _ rpop
        · have hseg' := r'.seg
          have hids := r'.ids
          rw [hys] at hseg' hids
          rw [ids_cons] at hids
          have hxy : y.id ≠ x.id := fun h => hids.1 (by simp [h])
          simp only [hd_cons, modify, upd_ne hxy, hseg'.2.1, Out.bind_ok]
          have := ih _ _ rpop
          simpa [hdue'] using this
      · have h0 : ¬ x.due - (a.now : Int) = 0 := by omega
        rw [if_neg h0, if_neg hdue]
        exact ⟨s, rfl, r⟩

theorem advance_rep {W} (cb : Ev → W → Prog W) (n : Nat) (s : St W) (a : Abs W) (r : Rep s a)
    (hgt : ∀ x ∈ a.items, (a.now : Int) < x.due) :
    Match (advance cb n s) (aAdvance cb n a) := by
  rcases hit : a.items with _ | ⟨x, xs⟩
  · have hh : s.head = none := by rw [r.head, hit, hd_nil]
    simp only [advance, aAdvance, hit, hh]
    refine ⟨_, rfl, ?_⟩
    have hleak := r.leak; have htail := r.tail
    rw [hit] at hleak htail
    constructor <;> simp only [hit] <;> simp [Seg, lst, Ids, r.w, r.now, r.log, r.fresh]
    · simpa [lst] using htail
    · simpa using hleak
  · have hh : s.head = some x.id := by rw [r.head, hit, hd_cons]
    have hseg := r.seg
    have hids := r.ids
    have hleak := r.leak
    rw [hit] at hseg hids hleak
    rw [ids_cons] at hids
    simp only [advance, aAdvance, hit, hh, modify, hseg.1, Out.bind_ok]
    have := advLoop_rep cb n
      { s with now := s.now + 1,
               heap := upd s.heap x.id (some { next := hd xs none, prev := none, time := x.due - (a.now + 1 : Nat), ev := x.ev }) }
      { a with now := a.now + 1 } ?_
    · have e : x.due - (a.now : Int) - 1 = x.due - ((a.now + 1 : Nat) : Int) := by omega
      rw [e]
      simp only [hh, hit] at this
      simpa [hh] using this
    · constructor
      · show Seg _ _ _ a.items _
        rw [hit]
        exact ⟨by simp [upd], Seg_upd hids.1 hseg.2⟩
      · exact r.head
      · exact r.tail
      · exact r.ids
      · exact r.lt
      · intro p hp
        have hp' : p ∉ (x :: xs).map Item.id := by rw [← hit]; exact hp
        simp only [upd]
        split
        · rename_i h; exact absurd h (by simp at hp'; exact hp'.1)
        · exact hleak p hp'
      · exact r.fresh
      · exact r.w
      · show s.now + 1 = a.now + 1
        rw [r.now]
      · exact r.log
      · exact r.sorted
      · intro y hy
        have := hgt y hy
        show ((a.now + 1 : Nat) : Int) ≤ y.due
        omega

/-- `aExec` from a strict state leaves only future items when no callback is running. -/
theorem aExec_gt {W} (cb : Ev → W → Prog W) (n : Nat) : ∀ (a a' : Abs W) (p : Prog W) (P : Item → Prop),
    (∀ x ∈ a.items, P x ∨ (a.now : Int) < x.due) → aExec cb n a p = .ok a' →
    a'.now = a.now ∧ a'.busy = a.busy ∧ ∀ x ∈ a'.items, P x ∨ (a'.now : Int) < x.due := by
  induction n with
  | zero => intro a a' p P _ h; simp [aExec] at h
  | succ n ih =>
    intro a a' p P hgt h
    cases p with
    | ret w => simp only [aExec, AOut.ok.injEq] at h; subst h; exact ⟨rfl, rfl, hgt⟩
    | sched w e t k =>
      simp only [aExec] at h
      split at h
      · rcases h1 : aExec cb n { a with w := w, log := (a.now, .imm e) :: a.log } (cb e w) with a1 | _ | _
        · rw [h1] at h
          obtain ⟨n1, b1, i1⟩ := ih { a with w := w, log := (a.now, .imm e) :: a.log } a1 _ P hgt h1
          obtain ⟨n2, b2, i2⟩ := ih a1 a' _ P i1 h
          exact ⟨n2.trans n1, b2.trans b1, i2⟩
        · rw [h1] at h; cases h
        · rw [h1] at h; cases h
      · split at h
        · cases h
        · rename_i h0 hneg
          obtain ⟨n2, b2, i2⟩ := ih (aInsert { a with w := w } e t) a' _ P (by
            intro x hx
            rcases mem_ins.1 hx with rfl | hx
            · right; simp [aInsert]; omega
            · exact hgt x hx) h
          exact ⟨n2, b2, i2⟩
    | cancel w dev func k =>
      simp only [aExec] at h
      rcases h1 : aCancel { a with w := w } dev func with a1 | _ | _
      · rw [h1] at h
        have key : a1.now = a.now ∧ a1.busy = a.busy ∧ ∀ x ∈ a1.items, x ∈ a.items := by
          unfold aCancel at h1
          split at h1
          · cases h1; exact ⟨rfl, rfl, fun x hx => hx⟩
          · rename_i y ys hys
            simp only at hys
            split at h1
            · split at h1 <;> cases h1
              exact ⟨rfl, rfl, fun x hx => by rw [hys]; exact List.mem_cons_of_mem _ hx⟩
            · split at h1 <;> cases h1
              exact ⟨rfl, rfl, fun x hx => hx⟩
        obtain ⟨n2, b2, i2⟩ := ih a1 a' _ P (by
          intro x hx
          rw [key.1]
          exact hgt x (key.2.2 x hx)) h
        exact ⟨n2.trans key.1, b2.trans key.2.1, i2⟩
      · rw [h1] at h; cases h
      · rw [h1] at h; cases h

theorem aAdvLoop_gt {W} (cb : Ev → W → Prog W) (n : Nat) : ∀ (a a' : Abs W),
    a.items.Pairwise (fun x y => x.due ≤ y.due) → (∀ x ∈ a.items, (a.now : Int) ≤ x.due) → a.busy = false →
    (∀ (b b' : Abs W) p m, b.items.Pairwise (fun x y => x.due ≤ y.due) → aExec cb m b p = .ok b' →
      b'.items.Pairwise (fun x y => x.due ≤ y.due)) →
    aAdvLoop cb n a = .ok a' →
    a'.now = a.now ∧ a'.busy = false ∧ ∀ x ∈ a'.items, (a'.now : Int) < x.due := by
  induction n with
  | zero => intro a a' _ _ _ _ h; simp [aAdvLoop] at h
  | succ n ih =>
    intro a a' hs hge hb hsx h
    unfold aAdvLoop at h
    split at h
    · rename_i hnil
      cases h
      exact ⟨rfl, hb, by simp [hnil]⟩
    · rename_i x xs hx
      split at h
      · rename_i hdue
        rcases h1 : aExec cb n { a with log := (a.now, .fire x.id x.ev) :: a.log, busy := true } (cb x.ev a.w) with a1 | _ | _
        · rw [h1] at h
          obtain ⟨hb1, hn1, ys, hys⟩ := aExec_busy cb n
            { a with log := (a.now, .fire x.id x.ev) :: a.log, busy := true } a1 _ x xs rfl hx hdue h1
          obtain ⟨-, -, hgt⟩ := aExec_gt cb n { a with log := (a.now, .fire x.id x.ev) :: a.log, busy := true } a1 _
            (fun x => (a.now : Int) ≤ x.due) (fun y hy => Or.inl (hge y hy)) h1
          have hs1 := hsx { a with log := (a.now, .fire x.id x.ev) :: a.log, busy := true } a1 _ n hs h1
          have := ih _ a' (by simp only [hys] at hs1 ⊢; exact (List.pairwise_cons.1 hs1).2)
            (by
              intro y hy
              rw [hys] at hy hgt
              simp only [hn1]
              have := hgt y (List.mem_cons_of_mem _ hy)
              rw [hn1] at this
              simp only at this
              omega) rfl hsx h
          obtain ⟨e1, e2, e3⟩ := this
          exact ⟨by rw [e1]; exact hn1, e2, e3⟩
        · rw [h1] at h; cases h
        · rw [h1] at h; cases h
      · rename_i hdue
        cases h
        refine ⟨rfl, hb, ?_⟩
        intro y hy
        have h1 := hge x (by rw [hx]; simp)
        rw [hx] at hy hs
        rcases List.mem_cons.1 hy with rfl | hy
        · omega
        · have := (List.pairwise_cons.1 hs).1 y hy; omega

theorem aExec_sorted {W} (cb : Ev → W → Prog W) (n : Nat) : ∀ (a a' : Abs W) (p : Prog W),
    a.items.Pairwise (fun x y => x.due ≤ y.due) → aExec cb n a p = .ok a' →
    a'.items.Pairwise (fun x y => x.due ≤ y.due) := by
  induction n with
  | zero => intro a a' p _ h; simp [aExec] at h
  | succ n ih =>
    intro a a' p hs h
    cases p with
    | ret w => simp only [aExec, AOut.ok.injEq] at h; subst h; exact hs
    | sched w e t k =>
      simp only [aExec] at h
      split at h
      · rcases h1 : aExec cb n { a with w := w, log := (a.now, .imm e) :: a.log } (cb e w) with a1 | _ | _
        · rw [h1] at h
          exact ih a1 a' _ (ih { a with w := w, log := (a.now, .imm e) :: a.log } a1 _ hs h1) h
        · rw [h1] at h; cases h
        · rw [h1] at h; cases h
      · split at h
        · cases h
        · exact ih (aInsert { a with w := w } e t) a' _ (ins_sorted hs) h
    | cancel w dev func k =>
      simp only [aExec] at h
      rcases h1 : aCancel { a with w := w } dev func with a1 | _ | _
      · rw [h1] at h
        refine ih a1 a' _ ?_ h
        unfold aCancel at h1
        split at h1
        · cases h1; exact hs
        · rename_i y ys hys
          simp only at hys
          split at h1
          · split at h1 <;> cases h1
            rw [hys] at hs
            exact (List.pairwise_cons.1 hs).2
          · split at h1 <;> cases h1
            exact hs
      · rw [h1] at h; cases h
      · rw [h1] at h; cases h

theorem aAdvance_gt {W} (cb : Ev → W → Prog W) (n : Nat) (a a' : Abs W)
    (hs : a.items.Pairwise (fun x y => x.due ≤ y.due)) (hgt : ∀ x ∈ a.items, (a.now : Int) < x.due)
    (hb : a.busy = false) (h : aAdvance cb n a = .ok a') :
    a'.now = a.now + 1 ∧ a'.busy = false ∧ ∀ x ∈ a'.items, (a'.now : Int) < x.due := by
  unfold aAdvance at h
  split at h
  · rename_i hnil; cases h; exact ⟨rfl, hb, by simp [hnil]⟩
  · have := aAdvLoop_gt cb n { a with now := a.now + 1 } a' hs (by
      intro x hx
      have := hgt x hx
      simp only
      omega) hb (fun b b' p m => aExec_sorted cb m b b' p) h
    exact this

theorem run_rep {W} (cb : Ev → W → Prog W) (n : Nat) (ops : List (Op W)) : ∀ (s : St W) (a : Abs W), Rep s a →
    (∀ x ∈ a.items, (a.now : Int) < x.due) → a.busy = false →
    Match (run cb n s ops) (aRun cb n a ops) := by
  induction ops with
  | nil => intro s a r _ _; exact ⟨s, rfl, r⟩
  | cons op ops ih =>
    intro s a r hgt hb
    cases op with
    | code p =>
      simp only [run, aRun]
      have hw := r.w
      rw [hw]
      refine Match.bind (exec_rep cb n _ _ _ r) ?_
      intro s' a' r' hok
      obtain ⟨-, hb', hg⟩ := aExec_gt cb n a a' _ (fun _ => False) (fun x hx => Or.inr (hgt x hx)) hok
      exact ih s' a' r' (fun x hx => (hg x hx).resolve_left id) (hb'.trans hb)
    | advance =>
      simp only [run, aRun]
      refine Match.bind (advance_rep cb n s a r hgt) ?_
      intro s' a' r' hok
      obtain ⟨-, hb', hg⟩ := aAdvance_gt cb n a a' r.sorted hgt hb hok
      exact ih s' a' r' hg hb'

theorem init_rep {W} (w : W) : Rep (init w) (aInit w) := by
  constructor <;> simp [init, aInit, Seg, lst, Ids]

end Verif.Event
