import Verif.Props.RestoreIff
import Verif.Props.Removed
import Verif.Props.Lost
/-!
# C116: exactly which contracts survive a save and a restore

`Survives` (Spec/SaveRestore.lean) lists what it takes; every part of it is necessary, and together they are sufficient.
-/
namespace Verif.Props
open Verif Spec Arena Baseline Store

/-- After at most 65,534 contracts one more can be serialized; the call for the 65,536th does not succeed. -/
theorem serializeAll_few {calls : List (ContractTy × Idx × HashOrder)} {b : Baseline} {s s' : Ser}
    {L : List (ContractTy × Idx)} {W : List WObj} {S : List WSlot} (hI : SerInv b s L W S) (hL : L.length ≤ 65535)
    (hs : s.serializeAll calls = (s', .ok ())) : L.length + calls.length ≤ 65535 := by
  induction calls generalizing s L W S with
  | nil => simpa using hL
  | cons c calls ih =>
    obtain ⟨C, h, ord⟩ := c
    have hlen : s.contracts.length = L.length := by
      have := congrArg List.length hI.tables; simpa using this.symm
    unfold Ser.serializeAll at hs
    rcases hs1 : s.serialize C h ord with ⟨s1, r⟩
    rw [hs1] at hs
    cases r with
    | err m => simp at hs
    | panic m => simp at hs
    | ok u =>
      cases u
      simp only at hs
      obtain ⟨W1, S1, h1⟩ := serialize_ok hI hs1
      have hlt : L.length < 65535 := by
        unfold Ser.serialize at hs1
        split at hs1
        · cases hs1
        · cases hs1
        · split at hs1
          · cases hs1
          · cases hs1
          · simp only [] at hs1
            split at hs1
            · cases hs1
            · rename_i hne
              simp only [List.length_append, List.length_cons, List.length_nil, hlen] at hne
              omega
      have := ih h1 (by simp; omega) hs
      simp at this ⊢; omega

/-- What `finish` wrote has the number of tables that the contracts take, however large. -/
theorem decoded_tables {b : Baseline} {s : Ser} {cs : List (ContractTy × Idx)} {W : List WObj} {S : List WSlot}
    (hI : SerInv b s cs W S) {ordC ordO : IterOrder (Idx × Nat)} {out : FbOut} {buf : FbBaseline}
    (hf : s.finish ordC ordO = .ok out) (hd : out.decode = some buf) : buf.tables = savedTables b cs := by
  rcases ser_finish_spec hI ordC ordO with ⟨_, e⟩ | ⟨_, out', a1, a2, a3, a4, a5⟩
  · rw [hf] at e; cases e
  rw [hf] at a1; injection a1 with a1; subst a1
  have hno : none ∉ out.states := by
    intro hm
    unfold FbOut.decode at hd
    rw [filled_none hm] at hd; cases hd
  obtain ⟨sts, f1, f2⟩ := filled_some (sts := out.states) (by
    intro sl hsl
    cases sl with
    | none => exact absurd hsl hno
    | some v => exact ⟨v, rfl⟩)
  unfold FbOut.decode at hd
  rw [f1] at hd
  simp only [Option.map_some, Option.some.injEq] at hd
  subst hd
  have h2 := hI.tables
  have hl : s.contracts.length = cs.length := by have := congrArg List.length h2; simpa using this.symm
  have h4 : sts.length = S.length := by rw [← a4, ← f2]; simp
  have b1 : (s.contracts.map FbContract.tables).sum = 3 * s.contracts.length := sum_const (by
    intro t ht
    have : Outcome.ok t ∈ cs.map fun e => Ser.contractTable e.1 := by rw [h2]; exact List.mem_map.2 ⟨t, ht, rfl⟩
    obtain ⟨e, _, he⟩ := List.mem_map.1 this
    obtain ⟨d1, k, d2, _⟩ := contractTable_describes he
    unfold FbContract.tables
    rw [d1, d2]; rfl)
  have b2 : (sts.map FbVal.tables).sum = 2 * sts.length := sum_const (by
    intro v hv
    obtain ⟨i, hi⟩ := List.getElem?_of_mem hv
    have hl := (List.getElem?_eq_some_iff.1 hi).1
    have hs : out.states[i]? = some (some v) := by rw [← f2, List.getElem?_map, hi]; rfl
    rcases a5 i _ (List.getElem?_eq_getElem (show i < S.length by omega)) with ⟨v', e1, _, _, e2⟩ | ⟨e1, _⟩
    · rw [hs] at e1; injection e1 with e1; injection e1 with e1; subst e1
      exact denotes_tables e2
    · rw [hs] at e1; cases e1)
  have b3 : ∀ W : List WObj, ((W.map WObj.table).map FbObject.tables).sum =
      2 * W.length + (W.map fun w => w.C.states.length).sum := by
    intro W
    induction W with
    | nil => rfl
    | cons w W ih =>
      simp only [List.map_cons, List.sum_cons, List.length_cons, ih]
      simp only [FbObject.tables, WObj.table, Option.getD_some, List.length_map, List.length_range]
      simp; omega
  unfold FbBaseline.tables savedTables
  simp only [Option.getD_some]
  rw [a2, a3, hI.objs.objs, b1, b2, b3, ← hI.objs.total, hI.wTotal, hl, h4, hI.sTotal]
  omega

/-- What a cycle that succeeds tells. -/
theorem survives_of_ok {kind : Kind} {evs : List Event} {b : Baseline} (hH : History kind evs b)
    {c : Cycle} (hu : UsedAs evs b (c.calls.map fun e => (e.1, e.2.1)))
    (hty : c.types.Perm (c.calls.map fun e => e.1)) {cs' : List (ContractTy × Idx)}
    {b' : Baseline} (h : c.run b = .ok (cs', b')) : Survives b (c.calls.map fun e => (e.1, e.2.1)) := by
  obtain ⟨s, out, buf, hs, hf, hd, hr⟩ := run_restore h
  obtain ⟨W, S, hI⟩ := serializeAll_ok (serInv_new b) hs
  have hfew := serializeAll_few (serInv_new b) (by simp) hs
  rw [List.nil_append] at hI
  generalize hcs : c.calls.map (fun e => (e.1, e.2.1)) = cs at hu hI ⊢
  have hlen : cs.length = c.calls.length := by rw [← hcs]; simp
  have hty : c.types.Perm (cs.map Prod.fst) := by rw [← hcs, List.map_map]; exact hty
  have hreg : ∀ (C : ContractTy) (h : Idx), (C, h) ∈ cs → ∃ cd, b.contractData h = .ok cd := by
    intro C h m
    obtain ⟨k, hk⟩ := List.getElem?_of_mem m
    obtain ⟨cd, e2, _⟩ := hI.members k C h hk
    exact ⟨cd, contractData_ok.2 e2⟩
  obtain ⟨hsz, hnull, hids⟩ := restore_needs hr
  have hnd : (cs.map Prod.snd).Nodup := by
    have hids : (cs.map fun e => e.1.id).Nodup := by
      have := (hty.map ContractTy.id).nodup_iff.1 hids
      rw [List.map_map] at this; exact this
    refine nodup_of_getElem? fun n n' x h1 h2 => ?_
    rw [List.getElem?_map, Option.map_eq_some_iff] at h1 h2
    obtain ⟨⟨C, h⟩, a1, rfl⟩ := h1
    obtain ⟨⟨C', h'⟩, b1, e⟩ := h2
    simp only at e; subst e
    obtain ⟨cd, hcd⟩ := hreg C h' (List.mem_of_getElem? a1)
    have i1 := hu.ids C h' cd (List.mem_of_getElem? a1) hcd
    have i2 := hu.ids C' h' cd (List.mem_of_getElem? b1) hcd
    exact (List.getElem?_inj (l := cs.map fun e => e.1.id) (i := n) (j := n')
      (by simpa using (List.getElem?_eq_some_iff.1 a1).1) hids).1 (by simp [a1, b1, ← i1, ← i2])
  have hP : Storable evs b cs := by
    refine ⟨?_, hu.typed, fun C h o m hne ho => saved_alive hI m hne ho, ?_, by simpa [hlen] using hfew⟩
    · intro C h m
      obtain ⟨cd, e⟩ := hreg C h m
      exact ⟨cd, e, hu.ids C h cd m e⟩
    · intro C h f hC hf
      cases ht : f.ty with
      | prim p => exact ⟨p, rfl⟩
      | vec p =>
        have hk : Ser.kindsOf C.stateTypes = none := kindsOf_none.2 ⟨p, List.mem_map.2 ⟨f, hf, ht⟩⟩
        have hm : Ser.contractTable C ∈ s.contracts.map Outcome.ok := by
          rw [← hI.tables]; exact List.mem_map.2 ⟨_, hC, rfl⟩
        obtain ⟨t, _, ht⟩ := List.mem_map.1 hm
        unfold Ser.contractTable at ht
        rw [hk] at ht; cases ht
  have hres : ∀ x ∈ S, ¬ Unresolved cs W x := by
    rcases ser_finish_spec hI c.ordC c.ordO with ⟨_, e⟩ | ⟨hr, _⟩
    · rw [hf] at e; cases e
    · exact hr
  rw [decoded_tables hI hf hd] at hsz
  have hsz' := hsz
  unfold savedTables at hsz'
  have hids' := ids_nodup hP hH hnd
  obtain ⟨out', buf', hf', hd', hO⟩ := finish_output hP hH hnd (by omega) hI hres c.ordC c.ordO
  rw [hf] at hf'; injection hf' with hf'; subst hf'
  rw [hd] at hd'; injection hd' with hd'; subst hd'
  have hD := serInv_distinct hP hH hnd hI
  refine ⟨?_, hnd, ?_, hP.primitive, closed_of_resolved hP hH hnd hI hres, ?_, ?_, hP.few, hsz⟩
  · intro C h m
    obtain ⟨cd, e⟩ := hreg C h m
    rw [e]; rfl
  · intro C h o m hne ho
    obtain ⟨ob, e⟩ := hP.present C h o m hne ho
    rw [e]; rfl
  · intro C h m hne
    have hun := channel_object_stuck hr
    refine List.eq_nil_iff_forall_not_mem.2 fun o ho => ?_
    obtain ⟨w, hw, rfl, rfl, rfl⟩ := hD.cover C h o m ho
    obtain ⟨p, hp⟩ := List.getElem?_of_mem hw
    have hn := hI.num w hw
    have hl := (List.getElem?_eq_some_iff.1 hn).1
    have hfew := hP.few
    exact hun w.C (hty.mem_iff.2 (List.mem_map.2 ⟨_, m, rfl⟩)) hne p ⟨w.C, by simp, w.k, w.table, BitVec.ofNat 16 w.k,
      hO.con hids' hn, hO.obj.2 ⟨w, hp, rfl⟩, rfl, by simp; omega⟩
  · intro e he
    exact hnull e.1 (hty.mem_iff.2 (List.mem_map.2 ⟨_, he, rfl⟩))

theorem survives_storable {evs : List Event} {b : Baseline} {cs : List (ContractTy × Idx)} (hs : Survives b cs)
    (hu : UsedAs evs b cs) : Storable evs b cs := by
  have hok : ∀ {α : Type} {x : Outcome α}, x.isOk = true → ∃ a, x = .ok a := by
    intro α x hx
    cases x with
    | ok a => exact ⟨a, rfl⟩
    | err m => cases hx
    | panic m => cases hx
  refine ⟨?_, hu.typed, fun C h o m hne ho => hok (hs.present C h o m hne ho), hs.primitive, hs.few⟩
  intro C h m
  obtain ⟨cd, e⟩ := hok (hs.registered C h m)
  exact ⟨cd, e, hu.ids C h cd m e⟩

theorem survives_perm {b : Baseline} {cs cs' : List (ContractTy × Idx)} (hS : Survives b cs) (hp : cs'.Perm cs) :
    Survives b cs' := by
  have hm : ∀ {C : ContractTy} {h : Idx}, (C, h) ∈ cs' ↔ (C, h) ∈ cs := hp.mem_iff
  have e1 : objectCount b cs' = objectCount b cs := perm_sum (hp.map _)
  have e2 : stateCount b cs' = stateCount b cs := perm_sum (hp.map _)
  refine ⟨?_, (hp.map _).nodup_iff.2 hS.different, ?_, ?_, ⟨?_, ?_⟩, ?_, ?_, ?_, ?_⟩
  · intro C h m; exact hS.registered C h (hm.1 m)
  · intro C h o m; exact hS.present C h o (hm.1 m)
  · intro C h f m; exact hS.primitive C h f (hm.1 m)
  · intro C h o n f v m l e1 e2 e3
    obtain ⟨C', h', m', l'⟩ := hS.closed.objects C h o n f v (hm.1 m) l e1 e2 e3
    exact ⟨C', h', hm.2 m', l'⟩
  · intro C h o n f v m l e1 e2 e3
    obtain ⟨C', m'⟩ := hS.closed.contracts C h o n f v (hm.1 m) l e1 e2 e3
    exact ⟨C', hm.2 m'⟩
  · intro C k he; exact hS.noChannels C k (hp.mem_iff.1 he)
  · intro e he; exact hS.notNull e (hp.mem_iff.1 he)
  · rw [hp.length_eq]; exact hS.few
  · have := hS.size; unfold savedTables at this ⊢; rw [e1, e2, hp.length_eq]; exact this

/-- **C116.** In every reachable baseline, for contracts used with their own types and every choice of call orders, hash
orders and kind: saving and restoring them succeeds if and only if `Survives` holds, which does not depend on those
choices; and whenever it succeeds the restored baseline has the same contents. -/
theorem C116_exactly {kind : Kind} {evs : List Event} {b : Baseline} (hH : History kind evs b)
    {cs : List (ContractTy × Idx)} (hu : UsedAs evs b cs) (c : Cycle) (hc : c.Fits cs) :
    ((c.run b).isOk = true ↔ Survives b cs) ∧
    ∀ (cs' : List (ContractTy × Idx)) (b' : Baseline), c.run b = .ok (cs', b') →
      ∃ φ ψ : Idx → Idx, SameContents b cs b' cs' φ ψ := by
  obtain ⟨hp, hty⟩ := hc
  have hu1 : UsedAs evs b (c.calls.map fun e => (e.1, e.2.1)) :=
    ⟨fun C h cd m => hu.ids C h cd (hp.mem_iff.1 m), fun C C' h o m => hu.typed C C' h o (hp.mem_iff.1 m)⟩
  have hty1 : c.types.Perm (c.calls.map fun e => e.1) := by
    have := hty.trans (hp.map Prod.fst).symm
    rw [List.map_map] at this; exact this
  have hback : ∀ (cs' : List (ContractTy × Idx)) (b' : Baseline), c.run b = .ok (cs', b') → Survives b cs :=
    fun cs' b' h => survives_perm (survives_of_ok hH hu1 hty1 h) hp.symm
  have hgo : Survives b cs → ∃ (cs' : List (ContractTy × Idx)) (b' : Baseline) (φ ψ : Idx → Idx),
      c.run b = .ok (cs', b') ∧ SameContents b cs b' cs' φ ψ := by
    intro hS
    have hS1 := survives_perm hS hp
    have hsz := hS1.size
    unfold savedTables at hsz
    obtain ⟨s, out, buf, r1, r2, r3, r4⟩ := storable_round_trip hH (survives_storable hS1 hu1) hS1.closed hS1.different hS1.notNull
      hS1.noChannels (by omega) (by omega) c.calls rfl c.ordC c.ordO
    obtain ⟨cs', b', φ, ψ, e, hE⟩ := r4 hS1.size c.types (hty.trans (hp.map Prod.fst).symm) c.kind c.sched c.ord c.hord
    refine ⟨cs', b', φ, ψ, ?_, same_perm hE hp⟩
    unfold Cycle.run
    simp only [r1, r2, r3, e]
  refine ⟨⟨fun h => ?_, fun hS => ?_⟩, fun cs' b' h => ?_⟩
  · cases hr : c.run b with
    | ok x => exact hback x.1 x.2 hr
    | err m => rw [hr] at h; cases h
    | panic m => rw [hr] at h; cases h
  · obtain ⟨cs', b', _, _, e, _⟩ := hgo hS
    rw [e]; rfl
  · obtain ⟨cs1, b1, φ, ψ, e, hE⟩ := hgo (hback cs' b' h)
    rw [h] at e; injection e with e; injection e with e1 e2
    subst e1 e2
    exact ⟨φ, ψ, hE⟩

/-- **C116.** So whether a save and a restore succeed does not depend on the orders of the calls, the hash orders or the
kind of the restored baseline. -/
theorem C116_choices_do_not_matter {kind : Kind} {evs : List Event} {b : Baseline} (hH : History kind evs b)
    {cs : List (ContractTy × Idx)} (hu : UsedAs evs b cs) (c1 c2 : Cycle) (h1 : c1.Fits cs) (h2 : c2.Fits cs) :
    (c1.run b).isOk = (c2.run b).isOk := by
  have a := (C116_exactly hH hu c1 h1).1
  have b := (C116_exactly hH hu c2 h2).1
  rw [Bool.eq_iff_iff, a, b]

/-! Cases: a baseline that survives, and two that do not (a removed object; objects with channels). -/

theorem savable_survives {kind : Kind} {evs : List Event} {b : Baseline} {cs : List (ContractTy × Idx)}
    (hS : Savable kind evs b cs) : UsedAs evs b cs ∧ Survives b cs := by
  refine ⟨⟨?_, hS.serializable.typed⟩, ?_, hS.different, ?_, hS.serializable.primitive, hS.closed, hS.noChannels,
    hS.notNull, hS.serializable.few, hS.size⟩
  · intro C h cd m e
    obtain ⟨cd', e', i⟩ := hS.serializable.registered C h m
    rw [e] at e'; injection e' with e'; subst e'; exact i
  · intro C h m
    obtain ⟨cd', e', i⟩ := hS.serializable.registered C h m
    rw [e']; rfl
  · intro C h o m _ ho
    obtain ⟨ob, e⟩ := hS.serializable.present C h o m ho
    rw [e]; rfl

/-- Two objects, one of them warped. -/
example : ((demoCycle [(warpC, h0)]).run warpB).isOk = true :=
  (C116_exactly warp_history (savable_survives warp_savable).1 _ (demoCycle_fits _)).1.2 (savable_survives warp_savable).2

/-- Two objects, one of them removed. -/
example : ((demoCycle [(plainC, h0)]).run cutB).isOk = false := by
  have hu : UsedAs cutEvs cutB [(plainC, h0)] := by
    refine ⟨?_, ?_⟩
    · intro C h cd m e
      obtain ⟨rfl, rfl⟩ : C = plainC ∧ h = h0 := by simpa using m
      rw [show cutB.contractData h0 = .ok ⟨plainC.id, [h1, h0]⟩ from by decide +kernel] at e
      injection e with e; rw [← e]
    · intro C C' h o m hcr
      obtain ⟨rfl, rfl⟩ : C = plainC ∧ h = h0 := by simpa using m
      exact cut_typed C' o hcr
  cases hr : ((demoCycle [(plainC, h0)]).run cutB).isOk with
  | false => rfl
  | true =>
    have hS := (C116_exactly (runOps_trace _ _) hu _ (demoCycle_fits _)).1.1 hr
    have := hS.present plainC h0 h0 (by simp) (by simp [plainC]) (by decide +kernel)
    revert this; decide +kernel

/-- Two objects with a channel. -/
example : ((demoCycle [(demoC, h0), (emptyC, h1)]).run demoB).isOk = false := by
  have hu : UsedAs demoEvs demoB [(demoC, h0), (emptyC, h1)] := by
    refine ⟨?_, demo_serializable.typed⟩
    intro C h cd m e
    obtain ⟨cd', e', i⟩ := demo_serializable.registered C h m
    rw [e] at e'; injection e' with e'; subst e'; exact i
  cases hr : ((demoCycle [(demoC, h0), (emptyC, h1)]).run demoB).isOk with
  | false => rfl
  | true =>
    have hS := (C116_exactly demo_history hu _ (demoCycle_fits _)).1.1 hr
    have := hS.noChannels demoC h0 (by simp) (by decide)
    revert this; decide +kernel

end Verif.Props
