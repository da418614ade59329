import Verif.Cpu50.Rs5

/-!
# Model 2050: instructions and programs

`step_exec`: one instruction of the specification `S360.step`; `prog_exec`: any number of them.
-/

namespace Verif.Cpu50
open Verif.S360
attribute [local irreducible] ros

/-- The instruction stores a word over the one with the next instruction in its right half,
which the processor has fetched already. `a` is the state before the instruction, with the
address of the next one. -/
def Hazard (a : Arch) (op : BitVec 8) (x : W) : Prop :=
  op.toNat = 0x50 ∧ a.ia.toNat % 4 = 2 ∧ x.toNat / 4 = a.ia.toNat / 4

/-- Every RX instruction of the specification. -/
theorem rx_exec {e : Env} {tk : Bool} {a a' : Arch} {i i1 : BitVec 16} {s : S} (ho : EnvOk e)
    (h : FetRX e tk a i i1 s)
    (hv : rx (4 * words e) a (opOf i) (dig1 i)
      (ea a (dig2 i) (i1.extractLsb' 12 4) (i1.extractLsb' 0 12)) = some a')
    (hz : ¬ Hazard a (opOf i) (ea a (dig2 i) (i1.extractLsb' 12 4) (i1.extractLsb' 0 12)))
    (hi : InStore e a') : Ev e tk (Bd e tk a') s := by
  have h4 := to_op4 ho h
  have h5 := to_opx ho h
  generalize ea a (dig2 i) (i1.extractLsb' 12 4) (i1.extractLsb' 0 12) = x at *
  have hfix : ∀ r v, fixed a r v = some a' → a'.ia = a.ia := by
    intro r v h1
    unfold fixed at h1
    split at h1
    · obtain rfl := Option.some.inj h1; rfl
    · split at h1
      · exact nomatch h1
      · obtain rfl := Option.some.inj h1; rfl
  have hw : ∀ n, Arch.within (4 * words e) n x = true → x.toNat % n = 0 ∧ x.toNat + n ≤ 4 * words e := by
    intro n h1
    simpa [Arch.within] using h1
  unfold rx at hv
  split at hv <;> rename_i heq
  · split at hv
    · rename_i h1
      have h2 := hw _ h1.1
      obtain rfl := Option.some.inj hv
      exact Ev.bind (h4 (by rw [heq])) fun s' h' =>
        sth_exec ho h' heq (by omega) h2.1 h1.2 (hi.same rfl)
    · exact nomatch hv
  · obtain rfl := Option.some.inj hv
    exact Ev.bind (h4 (by rw [heq])) fun s' h' => la_exec ho h' heq (hi.same rfl)
  · split at hv
    · rename_i h1
      have h2 := hw _ h1.1
      obtain rfl := Option.some.inj hv
      exact Ev.bind (h4 (by rw [heq])) fun s' h' =>
        stc_exec ho h' heq (by omega) h1.2 (hi.same rfl)
    · exact nomatch hv
  · split at hv
    · rename_i h1
      have h2 := hw _ h1
      obtain rfl := Option.some.inj hv
      exact Ev.bind (h4 (by rw [heq])) fun s' h' =>
        ic_exec ho h' heq (by omega) (hi.same rfl)
    · exact nomatch hv
  · obtain rfl := Option.some.inj hv
    exact Ev.bind (h4 (by rw [heq])) fun s' h' => bal_exec ho h' heq hi
  · exact Ev.bind (h4 (by rw [heq])) fun s' h' =>
      bct_exec ho h' heq hi (Option.some.inj hv).symm
  · exact Ev.bind (h4 (by rw [heq])) fun s' h' =>
      bc_exec ho h' heq hi (Option.some.inj hv).symm
  · split at hv
    · rename_i h1
      have h2 := hw _ h1
      obtain rfl := Option.some.inj hv
      exact Ev.bind (h4 (by rw [heq])) fun s' h' =>
        lh_exec ho h' heq (by omega) h2.1 (hi.same rfl)
    · exact nomatch hv
  · split at hv
    · rename_i h1
      have h2 := hw _ h1
      obtain rfl := Option.some.inj hv
      exact Ev.bind (h4 (by rw [heq])) fun s' h' =>
        ch_exec ho h' heq (by omega) h2.1 (hi.same rfl)
    · exact nomatch hv
  · split at hv
    · rename_i h1
      have h2 := hw _ h1
      exact Ev.bind (h4 (by rw [heq])) fun s' h' =>
        ah_exec ho h' heq (by omega) h2.1 (hi.same (hfix _ _ hv).symm) hv
    · exact nomatch hv
  · split at hv
    · rename_i h1
      have h2 := hw _ h1
      exact Ev.bind (h4 (by rw [heq])) fun s' h' =>
        sh_exec ho h' heq (by omega) h2.1 (hi.same (hfix _ _ hv).symm) hv
    · exact nomatch hv
  · split at hv
    · rename_i h1
      have h2 := hw _ h1.1
      obtain rfl := Option.some.inj hv
      exact Ev.bind (h5 (by rw [heq]) h1.1) fun s' h' =>
        st_exec ho h' heq h1.2 h2.2 (fun h3 h4 => hz ⟨heq, h3, h4⟩) (hi.same rfl)
    · exact nomatch hv
  · split at hv
    · rename_i h1
      have hc : (opOf i).toNat / 16 = 5 ∧ a'.ia = a.ia := by
        unfold rx.rxWord at hv
        split at hv <;> rename_i heq2 <;>
          first
            | (rw [heq2]; refine ⟨rfl, ?_⟩
               first
                 | exact hfix _ _ hv
                 | (obtain rfl := Option.some.inj hv; rfl))
            | exact nomatch hv
      exact Ev.bind (h5 hc.1 h1) fun s' h' => opx_exec ho h' hc.1 hv (hi.same hc.2.symm)
    · exact nomatch hv

/-- The instruction at `a.ia` overwrites the next one after it has been fetched. -/
def Selfmod (a : Arch) : Prop :=
  Hazard { a with ia := a.ia + 4 } (opOf a.inst)
    (ea a (dig2 a.inst) ((a.half (a.ia.toNat + 2)).extractLsb' 12 4)
      ((a.half (a.ia.toNat + 2)).extractLsb' 0 12))

/-- One instruction. -/
theorem step_exec {e : Env} {tk : Bool} {a a' : Arch} {s : S} (ho : EnvOk e)
    (h : Ready e tk a s) (hia : InStore e a) (hv : step (4 * words e) a = some a')
    (hz : ¬ Selfmod a) (hi : InStore e a') : Ev e tk (Bd e tk a') s := by
  unfold step at hv
  split at hv
  · rename_i hop
    exact Ev.bind (fetch_rr ho h hop hia.rg) fun s' h' => rr_exec ho h' hv hi
  · rename_i hop
    split at hv
    · rename_i hop2
      exact Ev.bind (fetch_rx ho h (by omega) (by omega) hia.rg) fun s' h' =>
        rx_exec ho h' hv hz hi
    · split at hv
      · rename_i hop2
        exact Ev.bind (fetch_rx ho h (by omega) (by omega) hia.rg) fun s' h' =>
          rs_exec ho h' hv hi
      · split at hv
        · rename_i hop3
          exact Ev.bind (fetch_rx ho h (by omega) (by omega) hia.rg) fun s' h' =>
            si_exec ho h' hv hi
        · exact nomatch hv

end Verif.Cpu50
