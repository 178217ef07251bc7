import Verif.Props.Baseline
import Verif.Props.Restore
import Verif.Proofs.SerBuffer
/-!
# C48: serializing and deserializing reproduces the contents

The baseline is any one reachable by a history of public calls.  `Serializable`, `Closed` and `SameContents` are in
Spec/RoundTrip.lean and use only the public readers.
-/
namespace Verif.Props
open Verif Spec Arena Baseline Store

/-- A value that denotes two properties, under two readings of the numbers. -/
theorem denotes_both {c1 o1 c2 o2 : Nat → Idx → Prop} {v : FbVal} {p q : DynProp} {φ ψ : Idx → Idx}
    (h1 : Denotes c1 o1 v (noSign p)) (h2 : Denotes c2 o2 v q)
    (hc : ∀ (c : Nat) (h h' : Idx), c1 c h → c2 c h' → h' = ψ h)
    (ho : ∀ (r : Nat) (o o' : Idx), o1 r o → o2 r o' → o' = φ o) : q = asRestored φ ψ p := by
  cases p with
  | vec p => cases h1
  | primitive p =>
    cases p with
    | objectHandle o =>
      cases h1 with | object r _ h => cases h2 with | object _ o' h' => rw [ho _ _ _ h h']; rfl
    | contractDataHandle k =>
      cases h1 with | contract c _ h1' => cases h2 with | contract _ h' h2' => rw [hc _ _ _ h1' h2']; rfl
    | _ => cases h1; cases h2; rfl

theorem ids_inj {kind : Kind} {evs : List Event} {b : Baseline} {cs : List (ContractTy × Idx)}
    (hP : Storable evs b cs) (hH : History kind evs b) {C C' : ContractTy} {h h' : Idx} (h1 : (C, h) ∈ cs)
    (h2 : (C', h') ∈ cs) (e : C.id = C'.id) : h = h' := by
  have hB := history_binv hH
  obtain ⟨cd, a1, a2⟩ := hP.registered C h h1
  obtain ⟨cd', b1, b2⟩ := hP.registered C' h' h2
  exact hB.c.idUnique h h' cd cd' (contractData_ok.1 a1) (contractData_ok.1 b1) (by rw [a2, b2, e])

theorem ids_nodup {kind : Kind} {evs : List Event} {b : Baseline} {cs : List (ContractTy × Idx)}
    (hP : Storable evs b cs) (hH : History kind evs b) (hnd : (cs.map Prod.snd).Nodup) :
    (cs.map fun e => e.1.id).Nodup := by
  refine nodup_of_getElem? fun n n' x h1 h2 => ?_
  rw [List.getElem?_map, Option.map_eq_some_iff] at h1 h2
  obtain ⟨⟨C, h⟩, a1, a2⟩ := h1
  obtain ⟨⟨C', h'⟩, b1, b2⟩ := h2
  have := ids_inj hP hH (List.mem_of_getElem? a1) (List.mem_of_getElem? b1) (a2.trans b2.symm)
  subst this
  exact snd_inj hnd a1 b1

/-- As C48, about what the contracts list. -/
theorem storable_round_trip {kind : Kind} {evs : List Event} {b : Baseline} (hH : History kind evs b)
    {cs : List (ContractTy × Idx)} (hP : Storable evs b cs) (hcl : Closed b cs) (hnd : (cs.map Prod.snd).Nodup)
    (hnull : ∀ e ∈ cs, e.1.id ≠ ⟨"teleportal.serialize.NullContract", (0, 0, 0)⟩)
    (hch : NoChannelObjects b cs) (hobj : objectCount b cs ≤ 2 ^ 32) (hst : stateCount b cs ≤ 2 ^ 32)
    (calls : List (ContractTy × Idx × HashOrder)) (hcalls : calls.map (fun c => (c.1, c.2.1)) = cs)
    (ordC ordO : IterOrder (Idx × Nat)) :
    ∃ (s : Ser) (out : FbOut) (buf : FbBaseline), (Ser.new b).serializeAll calls = (s, .ok ()) ∧
      s.finish ordC ordO = .ok out ∧ out.decode = some buf ∧
      (savedTables b cs ≤ 1000000 →
      ∀ (Cs' : List ContractTy), Cs'.Perm (cs.map Prod.fst) → ∀ (kind' : Kind) (sched : IterOrder (ContractTy × Idx))
        (ord : IterOrder (Nat × Idx)) (hord : HashOrder),
        ∃ (cs' : List (ContractTy × Idx)) (b' : Baseline) (φ ψ : Idx → Idx),
          restore buf kind' Cs' sched ord hord = .ok (cs', b') ∧ SameContents b cs b' cs' φ ψ) := by
  obtain ⟨s, hs⟩ := serializeAll_succeeds hP hH calls (by
    intro c hc; rw [← hcalls]; exact List.mem_map.2 ⟨c, hc, rfl⟩) (serInv_new b) (by
    have := hP.few; rw [← hcalls] at this; simpa using this)
  obtain ⟨W, S, hI⟩ := serializeAll_ok (serInv_new b) hs
  rw [List.nil_append, hcalls] at hI
  have hids := ids_nodup hP hH hnd
  obtain ⟨out, buf, hf, hd, hO⟩ := finish_output hP hH hnd hobj hI (resolved_of_closed hP hH hnd hcl hI) ordC ordO
  have hD := serInv_distinct hP hH hnd hI
  refine ⟨s, out, buf, hs, hf, hd, ?_⟩
  intro hsz Cs' hperm kind' sched ord hord
  have hR := output_restorable hP hH hnd hids hst hI hO (Cs := Cs') fun C => hperm.mem_iff
  have hmem : ∀ C ∈ Cs', ∃ e ∈ cs, e.1 = C := fun C hC => List.mem_map.1 (hperm.mem_iff.1 hC)
  have hids' : (Cs'.map ContractTy.id).Nodup := by
    refine (hperm.map ContractTy.id).nodup_iff.2 ?_
    rw [List.map_map]; exact hids
  have hun : ChannelsUnused buf Cs' := by
    intro C hC hne p ⟨C0, h0, k, obj, c, e1, e2, e3, e4⟩
    rw [List.mem_singleton] at h0; subst h0
    obtain ⟨e, he, rfl⟩ := hmem C0 hC
    obtain ⟨h, hk⟩ := hO.con_inv hids (List.mem_map.2 ⟨_, he, rfl⟩) e1
    obtain ⟨w, hw, rfl⟩ := hO.obj.1 e2
    have hn := hI.num w (List.mem_of_getElem? hw)
    have hl := (List.getElem?_eq_some_iff.1 hn).1
    have hfew := hP.few
    have hwk : w.k = k := by
      simp only [WObj.table, Option.some.injEq] at e3
      rw [← e4, ← e3]; simp; omega
    rw [hwk, hk] at hn; injection hn with hn
    have hlist := (hD.listed w (List.mem_of_getElem? hw)).2
    have := hch e.1 h (List.mem_of_getElem? hk) hne
    rw [show w.h = h from (congrArg Prod.snd hn).symm, this] at hlist
    simp at hlist
  obtain ⟨cs', b', number, r1, r2, r3, r4, r5, r6, r7, r8⟩ := C62_complete_buffers_restore hR hids'
    (fun C hC => by obtain ⟨e, he, rfl⟩ := hmem C hC; exact hnull e he)
    hun (by rw [Output.tables hI hO]; exact hsz) kind' sched ord hord
  -- contracts
  have hcs'fst : ∀ (C : ContractTy) (h1 h2 : Idx), (C, h1) ∈ cs' → (C, h2) ∈ cs' → h1 = h2 := by
    intro C h1 h2 m1 m2
    obtain ⟨n1, e1⟩ := List.getElem?_of_mem m1
    obtain ⟨n2, e2⟩ := List.getElem?_of_mem m2
    have : n1 = n2 := (List.getElem?_inj (l := Cs'.map ContractTy.id)
      (by rw [← r2]; simpa using (List.getElem?_eq_some_iff.1 e1).1) hids').1 (by rw [← r2]; simp [e1, e2])
    subst this
    rw [e1] at e2; injection e2 with e2; injection e2
  have hψex : ∃ ψ : Idx → Idx, ∀ (C : ContractTy) (h : Idx), (C, h) ∈ cs → (C, ψ h) ∈ cs' := by
    have : ∀ h : Idx, ∃ h' : Idx, ∀ C : ContractTy, (C, h) ∈ cs → (C, h') ∈ cs' := by
      intro h
      by_cases hx : ∃ C, (C, h) ∈ cs
      · obtain ⟨C, hC⟩ := hx
        have : C ∈ cs'.map Prod.fst := by
          rw [r2]; exact hperm.mem_iff.2 (List.mem_map.2 ⟨_, hC, rfl⟩)
        obtain ⟨⟨C1, h'⟩, m, rfl⟩ := List.mem_map.1 this
        refine ⟨h', fun C2 hC2 => ?_⟩
        obtain ⟨n1, e1⟩ := List.getElem?_of_mem hC
        obtain ⟨n2, e2⟩ := List.getElem?_of_mem hC2
        have := snd_inj hnd e1 e2
        subst this
        rw [e1] at e2; injection e2 with e2; injection e2 with e2 _
        subst e2; exact m
      · exact ⟨h, fun C hC => absurd ⟨C, hC⟩ hx⟩
    exact ⟨fun h => (this h).choose, fun C h hC => (this h).choose_spec C hC⟩
  obtain ⟨ψ, hψ⟩ := hψex
  have hcs'back : ∀ (C : ContractTy) (h' : Idx), (C, h') ∈ cs' → ∃ h, (C, h) ∈ cs ∧ ψ h = h' := by
    intro C h' hm
    have : C ∈ cs.map Prod.fst := by
      refine hperm.mem_iff.1 ?_
      rw [← r2]; exact List.mem_map.2 ⟨_, hm, rfl⟩
    obtain ⟨⟨C1, h⟩, m, rfl⟩ := List.mem_map.1 this
    exact ⟨h, m, hcs'fst _ _ _ (hψ _ _ m) hm⟩
  have hconNo : ∀ (C : ContractTy) (h' : Idx) (c : Nat), (C, h') ∈ cs' → ContractNo buf C c →
      ∃ h, cs[c]? = some (C, h) ∧ h' = ψ h := by
    intro C h' c hm hno
    obtain ⟨h0, m0, _⟩ := hcs'back C h' hm
    obtain ⟨h, hk⟩ := hO.con_inv hids (List.mem_map.2 ⟨_, m0, rfl⟩) hno
    exact ⟨h, hk, hcs'fst _ _ _ hm (hψ _ _ (List.mem_of_getElem? hk))⟩
  -- objects
  have hφex : ∃ φ : Idx → Idx, ∀ (p : Nat) (w : WObj), W[p]? = some w → ∃ ob', b'.object (φ w.o) = .ok ob' ∧
      number (φ w.o) = p := by
    have : ∀ o : Idx, ∃ o' : Idx, ∀ (p : Nat) (w : WObj), W[p]? = some w → w.o = o →
        ∃ ob', b'.object o' = .ok ob' ∧ number o' = p := by
      intro o
      by_cases hx : ∃ (p : Nat) (w : WObj), W[p]? = some w ∧ w.o = o
      · obtain ⟨p, w, hw, rfl⟩ := hx
        have hn := hI.num w (List.mem_of_getElem? hw)
        have hl := (List.getElem?_eq_some_iff.1 hn).1
        have hfew := hP.few
        obtain ⟨o', ob', g1, g2⟩ := r7 p ⟨w.C, hperm.mem_iff.2 (List.mem_map.2 ⟨_, List.mem_of_getElem? hn, rfl⟩),
          w.k, w.table, BitVec.ofNat 16 w.k, hO.con hids hn, hO.obj.2 ⟨w, hw, rfl⟩, rfl, by simp; omega⟩
        refine ⟨o', fun p' w' hw' e => ?_⟩
        have := hD.objs p p' w w' hw hw' e.symm
        subst this
        exact ⟨ob', g1, g2⟩
      · exact ⟨o, fun p w hw e => absurd ⟨p, w, hw, e⟩ hx⟩
    exact ⟨fun o => (this o).choose, fun p w hw => (this w.o).choose_spec p w hw rfl⟩
  obtain ⟨φ, hφ⟩ := hφex
  have hfull : ∀ (p : Nat) (w : WObj), W[p]? = some w → ∀ ob' : ObjectD, b'.object (φ w.o) = .ok ob' →
      ob'.contract = ψ w.h ∧ ob'.states.length = w.C.states.length ∧
      ∀ (n : Nat) (f : Field) (j : Idx), w.C.states[n]? = some f → ob'.states[n]? = some j →
        ∃ v val, StateAt buf (w.start + n) v ∧ b'.state f.ty j = .ok val ∧
          Denotes (fun c h => ∃ C', (C', h) ∈ cs' ∧ ContractNo buf C' c)
            (fun r o' => number o' = r ∧ ∃ ob', b'.object o' = .ok ob') v (DynProp.ofTyped f.ty val) := by
    intro p w hw ob' hob'
    obtain ⟨ob1, q1, q2⟩ := hφ p w hw
    rw [hob'] at q1; injection q1 with q1; subst q1
    obtain ⟨C, k, obj, g1, g2, g3, g4, g5, _, _, g8⟩ := r8 _ _ hob'
    rw [q2] at g3
    obtain ⟨w1, hw1, rfl⟩ := hO.obj.1 g3
    rw [hw] at hw1; injection hw1 with hw1; subst hw1
    obtain ⟨h, hk, he⟩ := hconNo C _ k g1 g2
    have hn := hI.num w (List.mem_of_getElem? hw)
    have hl := (List.getElem?_eq_some_iff.1 hn).1
    have hfew := hP.few
    obtain ⟨⟨c, c1, c2⟩, _⟩ := g4
    have : w.k = k := by
      simp only [WObj.table, Option.some.injEq] at c1
      subst c1
      simp at c2; omega
    subst this
    rw [hn] at hk; injection hk with hk; injection hk with k1 k2
    subst k1 k2
    refine ⟨he, g5, ?_⟩
    intro n f j h1 h2
    exact g8 n (w.start + n) f j h1 (((written_idx hI hst hw).2 n _).2 ⟨(List.getElem?_eq_some_iff.1 h1).1, rfl⟩) h2
  have hcovW : ∀ (C : ContractTy) (h o : Idx), (C, h) ∈ cs → o ∈ objectsOf b h →
      ∃ (p : Nat) (w : WObj), W[p]? = some w ∧ w.o = o ∧ w.C = C ∧ w.h = h := by
    intro C h o hC ho
    obtain ⟨w, hw, e⟩ := hD.cover C h o hC ho
    obtain ⟨p, hp⟩ := List.getElem?_of_mem hw
    exact ⟨p, w, hp, e⟩
  have hback : ∀ (o' : Idx) (ob' : ObjectD), b'.object o' = .ok ob' → ∃ w, W[number o']? = some w ∧ o' = φ w.o := by
    intro o' ob' ho'
    obtain ⟨_, _, obj, _, _, g3, _⟩ := r8 o' ob' ho'
    obtain ⟨w, hw, rfl⟩ := hO.obj.1 g3
    obtain ⟨ob2, e1, e2⟩ := hφ _ w hw
    exact ⟨w, hw, r6 _ _ _ _ ho' e1 e2.symm⟩
  refine ⟨cs', b', φ, ψ, r1, ⟨?_, ?_, ?_, ?_, ?_, ?_, ?_, ?_⟩⟩
  · intro C h'
    exact ⟨hcs'back C h', fun ⟨h, m, e⟩ => by rw [← e]; exact hψ _ _ m⟩
  · intro C1 C2 h1 h2 m1 m2 e
    have n1 := hψ _ _ m1
    have n2 := hψ _ _ m2
    rw [← e] at n2
    obtain ⟨i1, e1⟩ := List.getElem?_of_mem n1
    obtain ⟨i2, e2⟩ := List.getElem?_of_mem n2
    have := snd_inj r3 e1 e2
    subst this
    rw [e1] at e2; injection e2 with e2; injection e2 with e2 _
    subst e2
    exact ids_inj hP hH m1 m2 rfl
  · intro h' cd' hcd'
    obtain ⟨C, hC⟩ := r5 h' cd' hcd'
    obtain ⟨h, m, e⟩ := hcs'back C h' hC
    exact ⟨C, h, m, e⟩
  · intro C h m
    obtain ⟨cd, a1, a2⟩ := hP.registered C h m
    obtain ⟨cd', b1, b2, b3⟩ := r4 C (ψ h) (hψ _ _ m)
    refine ⟨cd, cd', a1, b1, b2.trans a2.symm, fun o' => ?_⟩
    have hob : objectsOf b h = cd.objects := by unfold objectsOf; rw [a1]
    rw [b3]
    constructor
    · rintro ⟨ob', e1, e2⟩
      obtain ⟨w, hw, rfl⟩ := hback o' ob' e1
      obtain ⟨f1, _⟩ := hfull _ w hw ob' e1
      obtain ⟨l1, l2⟩ := hD.listed w (List.mem_of_getElem? hw)
      rw [e2] at f1
      have n1 := hψ _ _ m
      have n2 := hψ _ _ l1
      rw [← f1] at n2
      obtain ⟨i1, e3⟩ := List.getElem?_of_mem n1
      obtain ⟨i2, e4⟩ := List.getElem?_of_mem n2
      have := snd_inj r3 e3 e4
      subst this
      rw [e3] at e4; injection e4 with e4; injection e4 with e4 _
      subst e4
      have := ids_inj hP hH m l1 rfl
      subst this
      exact ⟨w.o, by rw [← hob]; exact l2, rfl⟩
    · rintro ⟨o, ho, rfl⟩
      obtain ⟨p, w, hw, rfl, rfl, rfl⟩ := hcovW C h o m (by rw [hob]; exact ho)
      obtain ⟨ob', e1, _⟩ := hφ p w hw
      exact ⟨ob', e1, (hfull p w hw ob' e1).1⟩
  · intro C1 C2 h1 h2 o1 o2 m1 m2 l1 l2 e
    obtain ⟨p1, w1, hw1, rfl, _⟩ := hcovW C1 h1 o1 m1 l1
    obtain ⟨p2, w2, hw2, rfl, _⟩ := hcovW C2 h2 o2 m2 l2
    obtain ⟨_, _, e1⟩ := hφ p1 w1 hw1
    obtain ⟨_, _, e2⟩ := hφ p2 w2 hw2
    rw [e, e2] at e1
    subst e1
    rw [hw1] at hw2; injection hw2 with hw2; rw [hw2]
  · intro o' ob' ho'
    obtain ⟨w, hw, rfl⟩ := hback o' ob' ho'
    obtain ⟨l1, l2⟩ := hD.listed w (List.mem_of_getElem? hw)
    exact ⟨w.C, w.h, w.o, l1, l2, rfl⟩
  · intro C h o m l
    obtain ⟨p, w, hw, rfl, rfl, rfl⟩ := hcovW C h o m l
    obtain ⟨ob', e1, _⟩ := hφ p w hw
    exact ⟨ob', e1, (hfull p w hw ob' e1).1⟩
  · intro C h o n f m l hf
    obtain ⟨p, w, hw, rfl, rfl, rfl⟩ := hcovW C h o m l
    obtain ⟨ob', e1, _⟩ := hφ p w hw
    obtain ⟨f1, f2, f3⟩ := hfull p w hw ob' e1
    have hnl : n < ob'.states.length := by rw [f2]; exact (List.getElem?_eq_some_iff.1 hf).1
    obtain ⟨v, val, g1, g2, g3⟩ := f3 n f _ hf (List.getElem?_eq_getElem hnl)
    obtain ⟨x, hx, hxo, hxd⟩ := hI.objs.fields p w hw n f hf
    obtain ⟨v', q1, q2⟩ := hO.slots _ x hx
    obtain ⟨t1, t2, _⟩ := hI.objs.slots.slots _ x hx
    have hvv : v = v' := by
      obtain ⟨s1, a1, a2⟩ := g1
      obtain ⟨s2, b1, b2⟩ := q1
      rw [a1] at b1; injection b1 with b1; subst b1
      rw [a2] at b2; injection b2
    subst hvv
    rcases x with ⟨xo, xd, xh, xv⟩
    simp only at hxo hxd t1 t2
    subst hxo hxd
    simp only [hI.base] at t1 t2
    refine ⟨xv, val, ⟨xh, t1, t2⟩, ⟨ob'.states[n], ?_, g2⟩, ?_⟩
    · rw [bindState_of_get (object_ok.1 e1)]
      exact bindIdx_ok.2 ⟨f1.symm, List.getElem?_eq_getElem hnl⟩
    · refine denotes_both q2 g3 ?_ ?_
      · rintro c h h' ⟨C, hc⟩ ⟨C', m', no⟩
        obtain ⟨h2, k1, k2⟩ := hconNo C' h' c m' no
        rw [hc] at k1; injection k1 with k1; injection k1 with _ k1
        rw [k2, k1]
      · rintro r o o' ⟨w', hw', rfl⟩ ⟨n1, ob2, n2⟩
        obtain ⟨w2, hw2, rfl⟩ := hback o' ob2 n2
        rw [n1, hw'] at hw2; injection hw2 with hw2
        rw [hw2]

/-- **C48.** Take any baseline reachable by public calls and any list `cs` of different registered contracts of it that
the format can carry, closed under references, with at most 2^32 objects and states in total, none with channels or with
the internal id.  Serializing them in that order and finishing succeeds and gives a well-formed buffer, whatever the hash
iteration orders; and, if its number of tables is within the reader's limit of a million, restoring that buffer with the same contract types, in any order, on a main or a fork baseline,
whatever the hash iteration orders, succeeds and gives a baseline with the same contents. -/
theorem C48_round_trip {kind : Kind} {evs : List Event} {b : Baseline} (hH : History kind evs b)
    {cs : List (ContractTy × Idx)} (hP : Serializable evs b cs) (hcl : Closed b cs) (hnd : (cs.map Prod.snd).Nodup)
    (hnull : ∀ e ∈ cs, e.1.id ≠ ⟨"teleportal.serialize.NullContract", (0, 0, 0)⟩)
    (hch : NoChannelObjects b cs) (hobj : objectCount b cs ≤ 2 ^ 32) (hst : stateCount b cs ≤ 2 ^ 32)
    (calls : List (ContractTy × Idx × HashOrder)) (hcalls : calls.map (fun c => (c.1, c.2.1)) = cs)
    (ordC ordO : IterOrder (Idx × Nat)) :
    ∃ (s : Ser) (out : FbOut) (buf : FbBaseline), (Ser.new b).serializeAll calls = (s, .ok ()) ∧
      s.finish ordC ordO = .ok out ∧ out.decode = some buf ∧
      (savedTables b cs ≤ 1000000 →
      ∀ (Cs' : List ContractTy), Cs'.Perm (cs.map Prod.fst) → ∀ (kind' : Kind) (sched : IterOrder (ContractTy × Idx))
        (ord : IterOrder (Nat × Idx)) (hord : HashOrder),
        ∃ (cs' : List (ContractTy × Idx)) (b' : Baseline) (φ ψ : Idx → Idx),
          restore buf kind' Cs' sched ord hord = .ok (cs', b') ∧ SameContents b cs b' cs' φ ψ) :=
  storable_round_trip hH hP.storable hcl hnd hnull hch hobj hst calls hcalls ordC ordO

/-! ## The hypotheses of C48 are met by a baseline with a cycle of references and a cross-contract reference -/

/-- Two nodes referring to each other, one of them through a later write, and a tag referring to the contract of the
nodes. -/
def graphOps : List BOp :=
  [.register nodeC, .register tagC,
   .create nodeC h0 [.primitive (.u8 5), .primitive (.objectHandle h0)] [],
   .create nodeC h0 [.primitive (.u8 6), .primitive (.objectHandle h0)] [],
   .create tagC h1 [.primitive (.string "a"), .primitive (.contractDataHandle h0)] [],
   .writeState (.prim .objectHandle) h0 h1]

def graphB : Baseline := ((Baseline.new .main).runOps graphOps).2
def graphEvs : List Event := ((Baseline.new .main).runOps graphOps).1
theorem graph_history : History .main graphEvs graphB := runOps_trace _ _

/-- The contracts to serialize. -/
def graphCs : List (ContractTy × Idx) := [(nodeC, h0), (tagC, h1)]

theorem graph_events : graphEvs = [(.register nodeC, .ok (some h0)), (.register tagC, .ok (some h1)),
    (.create nodeC h0 [.primitive (.u8 5), .primitive (.objectHandle h0)] [], .ok (some h0)),
    (.create nodeC h0 [.primitive (.u8 6), .primitive (.objectHandle h0)] [], .ok (some h1)),
    (.create tagC h1 [.primitive (.string "a"), .primitive (.contractDataHandle h0)] [], .ok (some ⟨2, 0⟩)),
    (.writeState (.prim .objectHandle) h0 h1, .ok none)] := by rfl

theorem graph_objects : objectsOf graphB h0 = [h1, h0] ∧ objectsOf graphB h1 = [⟨2, 0⟩] := by decide +kernel

theorem graph_serializable : Serializable graphEvs graphB graphCs := by
  have hcs : ∀ (C : ContractTy) (h : Idx), (C, h) ∈ graphCs → (C = nodeC ∧ h = h0) ∨ (C = tagC ∧ h = h1) := by
    intro C h hm; simpa [graphCs] using hm
  refine ⟨?_, ?_, ?_, ?_, by decide⟩
  · intro C h hm
    rcases hcs C h hm with ⟨rfl, rfl⟩ | ⟨rfl, rfl⟩
    · exact ⟨⟨nodeC.id, [h1, h0]⟩, by decide +kernel, rfl⟩
    · exact ⟨⟨tagC.id, [⟨2, 0⟩]⟩, by decide +kernel, rfl⟩
  · rintro C C' h o hm ⟨ss, cs, hc⟩
    rw [graph_events] at hc
    rcases hcs C h hm with ⟨rfl, rfl⟩ | ⟨rfl, rfl⟩ <;> simp [h0, h1] at hc <;> grind
  · intro C h o hm ho
    rcases hcs C h hm with ⟨rfl, rfl⟩ | ⟨rfl, rfl⟩
    · rw [graph_objects.1] at ho
      have : o = h1 ∨ o = h0 := by simpa using ho
      rcases this with rfl | rfl
      · exact ⟨_, rfl⟩
      · exact ⟨_, rfl⟩
    · rw [graph_objects.2] at ho
      rw [List.mem_singleton.1 ho]
      exact ⟨_, rfl⟩
  · intro C h f hm hf
    rcases hcs C h hm with ⟨rfl, rfl⟩ | ⟨rfl, rfl⟩ <;>
      (simp [nodeC, tagC] at hf; rcases hf with rfl | rfl <;> exact ⟨_, rfl⟩)

theorem graph_closed : Closed graphB graphCs := by
  have hcs : ∀ (C : ContractTy) (h : Idx), (C, h) ∈ graphCs → (C = nodeC ∧ h = h0) ∨ (C = tagC ∧ h = h1) := by
    intro C h hm; simpa [graphCs] using hm
  refine ⟨?_, ?_⟩
  · rintro C h o n f v hm ho hf ht ⟨j, e1, e2⟩
    rcases hcs C h hm with ⟨rfl, rfl⟩ | ⟨rfl, rfl⟩
    · rw [graph_objects.1] at ho
      have : o = h1 ∨ o = h0 := by simpa using ho
      have hn : n = 1 := by
        rcases n with _ | _ | n <;> simp [nodeC] at hf
        · subst hf; cases ht
        · rfl
      subst hn
      rcases this with rfl | rfl
      · have a1 : graphB.bindState ⟨1, h0⟩ h1 = .ok h1 := by decide +kernel
        have a2 : graphB.state (.prim .objectHandle) h1 = .ok h0 := by rfl
        rw [a1] at e1; injection e1 with e1; subst e1
        rw [a2] at e2; injection e2 with e2; subst e2
        exact ⟨nodeC, h0, by decide, by rw [graph_objects.1]; decide⟩
      · have a1 : graphB.bindState ⟨1, h0⟩ h0 = .ok h0 := by decide +kernel
        have a2 : graphB.state (.prim .objectHandle) h0 = .ok h1 := by rfl
        rw [a1] at e1; injection e1 with e1; subst e1
        rw [a2] at e2; injection e2 with e2; subst e2
        exact ⟨nodeC, h0, by decide, by rw [graph_objects.1]; decide⟩
    · rcases n with _ | _ | n <;> simp [tagC] at hf <;> subst hf <;> cases ht
  · rintro C h o n f v hm ho hf ht ⟨j, e1, e2⟩
    rcases hcs C h hm with ⟨rfl, rfl⟩ | ⟨rfl, rfl⟩
    · rcases n with _ | _ | n <;> simp [nodeC] at hf <;> subst hf <;> cases ht
    · rw [graph_objects.2] at ho
      rw [List.mem_singleton.1 ho] at e1
      have hn : n = 1 := by
        rcases n with _ | _ | n <;> simp [tagC] at hf
        · subst hf; cases ht
        · rfl
      subst hn
      have a1 : graphB.bindState ⟨1, h1⟩ ⟨2, 0⟩ = .ok h0 := by decide +kernel
      have a2 : graphB.state (.prim .contractDataHandle) h0 = .ok h0 := by rfl
      rw [a1] at e1; injection e1 with e1; subst e1
      rw [a2] at e2; injection e2 with e2; subst e2
      exact ⟨nodeC, by decide⟩

example (ord1 ord2 : HashOrder) (ordC ordO : IterOrder (Idx × Nat)) (kind' : Kind) (sched : IterOrder (ContractTy × Idx))
    (ord : IterOrder (Nat × Idx)) (hord : HashOrder) :
    ∃ s out buf cs' b' φ ψ, (Ser.new graphB).serializeAll [(nodeC, h0, ord1), (tagC, h1, ord2)] = (s, .ok ()) ∧
      s.finish ordC ordO = .ok out ∧ out.decode = some buf ∧
      restore buf kind' [tagC, nodeC] sched ord hord = .ok (cs', b') ∧ SameContents graphB graphCs b' cs' φ ψ := by
  obtain ⟨s, out, buf, e1, e2, e3, e4⟩ := C48_round_trip graph_history graph_serializable graph_closed (by decide)
    (by decide) (.of_none (by decide)) (by decide +kernel) (by decide +kernel)
    [(nodeC, h0, ord1), (tagC, h1, ord2)] rfl ordC ordO
  obtain ⟨cs', b', φ, ψ, e5, e6⟩ := e4 (by decide +kernel) [tagC, nodeC] (List.Perm.swap ..) kind' sched ord hord
  exact ⟨s, out, buf, cs', b', φ, ψ, e1, e2, e3, e5, e6⟩

end Verif.Props
