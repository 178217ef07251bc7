import Verif.Props.SerializeErr
import Verif.Props.RestoreIff
import Verif.Proofs.Repeat
/-!
# C51: serializing a contract more than once
-/
namespace Verif.Props
open Verif Spec Arena Baseline Store

theorem class_inj {α : Type} (W : List WObj) (g : WObj → α) {p p' k : Nat} {w w' : WObj} (hw : W[p]? = some w)
    (hw' : W[p']? = some w') (hk : w.k = k) (hk' : w'.k = k) (hnd : ((W.filter fun v => v.k = k).map g).Nodup)
    (e : g w = g w') : p = p' := by
  induction W generalizing p p' with
  | nil => simp at hw
  | cons x W ih =>
    have mem : ∀ (p : Nat) (w : WObj), W[p]? = some w → w.k = k → g w ∈ (W.filter fun v => v.k = k).map g := by
      intro p w hw hk
      exact List.mem_map.2 ⟨w, List.mem_filter.2 ⟨List.mem_of_getElem? hw, by simp [hk]⟩, rfl⟩
    have hnd' : ((W.filter fun v => v.k = k).map g).Nodup := by
      by_cases hx : x.k = k
      · rw [List.filter_cons_of_pos (by simp [hx]), List.map_cons, List.nodup_cons] at hnd; exact hnd.2
      · rw [List.filter_cons_of_neg (by simp [hx])] at hnd; exact hnd
    have hhead : x.k = k → g x ∉ (W.filter fun v => v.k = k).map g := by
      intro hx
      rw [List.filter_cons_of_pos (by simp [hx]), List.map_cons, List.nodup_cons] at hnd; exact hnd.1
    rcases p with _ | p <;> rcases p' with _ | p' <;> simp at hw hw'
    · rfl
    · subst hw; exact absurd (e ▸ mem p' w' hw' hk') (hhead hk)
    · subst hw'; exact absurd (e ▸ mem p w hw hk) (hhead hk')
    · rw [ih hw hw' hnd']

theorem find_first {cs : List (ContractTy × Idx)} {C : ContractTy} (hC : ∃ h, (C, h) ∈ cs) :
    ∃ (k : Nat) (h : Idx), cs[k]? = some (C, h) ∧ ∀ (j : Nat) (C' : ContractTy) (h' : Idx), j < k →
      cs[j]? = some (C', h') → C' ≠ C := by
  induction cs with
  | nil => obtain ⟨h, hm⟩ := hC; cases hm
  | cons e cs ih =>
    obtain ⟨C0, h0⟩ := e
    by_cases hx : C0 = C
    · subst hx
      exact ⟨0, h0, rfl, fun j _ _ hj => absurd hj (by omega)⟩
    · obtain ⟨h, hm⟩ := hC
      obtain ⟨k, h, e1, e2⟩ := ih ⟨h, by
        rcases List.mem_cons.1 hm with hm | hm
        · injection hm with e1 _; exact absurd e1.symm hx
        · exact hm⟩
      refine ⟨k + 1, h, by simpa using e1, ?_⟩
      intro j C' h' hj hj'
      rcases j with _ | j
      · simp at hj'; rw [← hj'.1]; exact hx
      · exact e2 j C' h' (by omega) (by simpa using hj')

/-- The round trip with repeated contracts that have no handle states. -/
theorem rep_round_trip {kind : Kind} {evs : List Event} {b : Baseline} (hH : History kind evs b)
    {cs : List (ContractTy × Idx)} (hP : Serializable evs b cs) (hcl : Closed b cs)
    (hty : ∀ (C C' : ContractTy) (h : Idx), (C, h) ∈ cs → (C', h) ∈ cs → C = C') (hpl : PlainRepeats b cs)
    (hnull : ∀ e ∈ cs, e.1.id ≠ ⟨"teleportal.serialize.NullContract", (0, 0, 0)⟩)
    (hch : NoChannelObjects b cs) (hobj : objectCount b cs ≤ 2 ^ 32) (hst : stateCount b cs ≤ 2 ^ 32)
    (calls : List (ContractTy × Idx × HashOrder)) (hcalls : calls.map (fun c => (c.1, c.2.1)) = cs)
    (ordC ordO : IterOrder (Idx × Nat)) :
    ∃ (s : Ser) (out : FbOut) (buf : FbBaseline), (Ser.new b).serializeAll calls = (s, .ok ()) ∧
      s.finish ordC ordO = .ok out ∧ out.decode = some buf ∧
      (NoRefToRepeats b cs → savedTables b cs ≤ 1000000 → ∀ (Cs' : List ContractTy), Cs'.Nodup →
        (∀ C : ContractTy, C ∈ Cs' ↔ C ∈ cs.map Prod.fst) →
        ∀ (kind' : Kind) (sched : IterOrder (ContractTy × Idx)) (ord : IterOrder (Nat × Idx)) (hord : HashOrder),
        ∃ (cs' : List (ContractTy × Idx)) (b' : Baseline) (φ ψ : Idx → Idx),
          restore buf kind' Cs' sched ord hord = .ok (cs', b') ∧ SameContents b cs b' cs' φ ψ) ∧
      (¬ NoRefToRepeats b cs → ∀ (Cs' : List ContractTy), Cs'.Nodup → (∀ C : ContractTy, C ∈ Cs' ↔ C ∈ cs.map Prod.fst) →
        ∀ (kind' : Kind) (sched : IterOrder (ContractTy × Idx)) (ord : IterOrder (Nat × Idx)) (hord : HashOrder),
        (restore buf kind' Cs' sched ord hord).isErr = true) := by
  have hP := hP.storable
  have hB := history_binv hH
  obtain ⟨s, hs⟩ := serializeAll_succeeds hP hH calls (by
    intro c hc; rw [← hcalls]; exact List.mem_map.2 ⟨c, hc, rfl⟩) (serInv_new b) (by
    have := hP.few; rw [← hcalls] at this; simpa using this)
  obtain ⟨W, S, hI⟩ := serializeAll_ok (serInv_new b) hs
  rw [List.nil_append, hcalls] at hI
  have hlist := rep_listed hI
  obtain ⟨out, buf, hf, hd, hO, hlast⟩ := finish_output_rep hP hH hpl hobj hI (rep_resolved hcl hI) ordC ordO
  have hfew := hP.few
  have hidC : ∀ (C C' : ContractTy) (h h' : Idx), (C, h) ∈ cs → (C', h') ∈ cs → C.id = C'.id → C = C' ∧ h = h' := by
    intro C C' h h' m m' e
    have := ids_inj hP hH m m' e
    subst this
    exact ⟨hty C C' h m m', rfl⟩
  -- the tables in the buffer
  obtain ⟨tbls, htb1, htb2⟩ := hO.contracts
  have htbl : ∀ (j : Nat) (C' : ContractTy) (h' : Idx), cs[j]? = some (C', h') → ∃ t, tbls[j]? = some t ∧ Describes t C' := by
    intro j C' h' hj
    have : (cs.map fun e => Ser.contractTable e.1)[j]? = some (Ser.contractTable C') := by simp [hj]
    rw [htb2, List.getElem?_map, Option.map_eq_some_iff] at this
    obtain ⟨t, e1, e2⟩ := this
    exact ⟨t, e1, contractTable_describes e2.symm⟩
  have hconFirst : ∀ (C : ContractTy) (h : Idx) (k : Nat), cs[k]? = some (C, h) →
      (∀ (j : Nat) (C' : ContractTy) (h' : Idx), j < k → cs[j]? = some (C', h') → C' ≠ C) → ContractNo buf C k := by
    intro C h k hk hfirst
    obtain ⟨t, e1, e2⟩ := htbl k C h hk
    refine ⟨tbls, t, htb1, e1, e2, ?_⟩
    intro j c' hj hc' hdesc
    have hlt : j < cs.length := by have := (List.getElem?_eq_some_iff.1 hk).1; omega
    rcases hcs : cs[j] with ⟨C', h'⟩
    have hj' : cs[j]? = some (C', h') := by rw [List.getElem?_eq_getElem hlt, hcs]
    obtain ⟨t', g1, g2⟩ := htbl j C' h' hj'
    rw [hc'] at g1; injection g1 with g1; subst g1
    have e := hdesc.1.symm.trans g2.1
    have hid : C.id = C'.id := by
      simp only [Option.some.injEq, FbContractId.mk.injEq] at e
      obtain ⟨a, b⟩ := e
      cases hC : C.id; cases hC' : C'.id
      rw [hC, hC'] at a b
      simp only at a b
      rw [a, b]
    exact hfirst j C' h' hj hj' (hidC _ _ _ _ (List.mem_of_getElem? hk) (List.mem_of_getElem? hj') hid).1.symm
  have hcon : ∀ (C : ContractTy) (h : Idx), (C, h) ∈ cs → ∃ k, ContractNo buf C k ∧ cs[k]? = some (C, h) := by
    intro C h hm
    obtain ⟨k, h', e1, e2⟩ := find_first ⟨h, hm⟩
    have := (hidC _ _ _ _ hm (List.mem_of_getElem? e1) rfl).2
    subst this
    exact ⟨k, hconFirst C h k e1 e2, e1⟩
  have hconInv : ∀ (C : ContractTy) (h : Idx) (k : Nat), (C, h) ∈ cs → ContractNo buf C k → cs[k]? = some (C, h) := by
    intro C h k hm hk
    obtain ⟨k', e1, e2⟩ := hcon C h hm
    rw [contractNo_unique hk e1]; exact e2
  -- a contract that is not repeated is described by its own table only
  have hconOnce : ∀ (C : ContractTy) (h : Idx) (k : Nat), cs[k]? = some (C, h) → ¬ Twice cs h → ContractNo buf C k := by
    intro C h k hk hno
    obtain ⟨k', e1, e2⟩ := hcon C h (List.mem_of_getElem? hk)
    by_cases e : k' = k
    · rw [← e]; exact e1
    · exact absurd ⟨k', k, C, C, e, e2, hk⟩ hno
  have hslot : ∀ (p i : Nat) (obj : FbObject), ObjectAt buf p obj → i ∈ stateIdxs obj → ∃ x v, S[i]? = some x ∧
      StateAt buf i v ∧ Denotes (fun c h => ∃ C, cs[c]? = some (C, h)) (fun r o => ∃ w, W[r]? = some w ∧ w.o = o) v (noSign x.prop) := by
    intro p i obj ho hi
    obtain ⟨w, hw, rfl⟩ := hO.obj.1 ho
    obtain ⟨n, hn⟩ := List.getElem?_of_mem hi
    obtain ⟨h1, rfl⟩ := ((written_idx hI hst hw).2 n i).1 hn
    obtain ⟨x, hx, _⟩ := hI.objs.fields p w hw n _ (List.getElem?_eq_getElem h1)
    obtain ⟨v, hv, hd⟩ := hO.slots _ x hx
    exact ⟨x, v, hx, hv, hd⟩
  have same : ∀ (i : Nat) (v v' : FbVal), StateAt buf i v → StateAt buf i v' → v = v' := by
    rintro i v v' ⟨s1, a1, a2⟩ ⟨s2, b1, b2⟩
    rw [a1] at b1; injection b1 with b1; subst b1
    rw [a2] at b2; injection b2
  refine ⟨s, out, buf, hs, hf, hd, ?_, ?_⟩
  rotate_left
  · intro hbad Cs' hnd' hmem' kind' sched ord hord
    have hmemcs : ∀ C ∈ Cs', ∃ h, (C, h) ∈ cs := by
      intro C hC
      obtain ⟨⟨C1, h⟩, m, rfl⟩ := List.mem_map.1 ((hmem' C).1 hC)
      exact ⟨h, m⟩
    have hids' : (Cs'.map ContractTy.id).Nodup := by
      refine nodup_of_getElem? fun n n' x h1 h2 => ?_
      rw [List.getElem?_map, Option.map_eq_some_iff] at h1 h2
      obtain ⟨C, a1, a2⟩ := h1
      obtain ⟨C', b1, b2⟩ := h2
      obtain ⟨h, m⟩ := hmemcs C (List.mem_of_getElem? a1)
      obtain ⟨h', m'⟩ := hmemcs C' (List.mem_of_getElem? b1)
      have := (hidC _ _ _ _ m m' (a2.trans b2.symm)).1
      subst this
      exact (List.getElem?_inj (l := Cs') (List.getElem?_eq_some_iff.1 a1).1 hnd').1 (a1.trans b1.symm)
    have hnp := C55_restore_no_panic_partial (NoHidden.inside (output_noHidden hI hO hst) Cs') kind' sched ord hord
    cases hr : restore buf kind' Cs' sched ord hord with
    | err m => rfl
    | panic m => rw [hr] at hnp; cases hnp
    | ok r =>
      exfalso
      obtain ⟨cs', b'⟩ := r
      obtain ⟨e1, d, hrun, hfin⟩ := restore_inv hr
      have hperm := sched.perm cs'
      have hcs' : ∀ (C : ContractTy) (h : Idx), (C, Outcome.ok h) ∈ cs'.map (fun e => (e.1, Outcome.ok e.2)) → ∃ h0, (C, h0) ∈ cs := by
        intro C h hm
        obtain ⟨e, he, e2⟩ := List.mem_map.1 hm
        injection e2 with e2 _
        exact hmemcs C (by rw [← e1, ← e2]; exact List.mem_map.2 ⟨e, he, rfl⟩)
      have hcalled : ∀ (p : Nat) (w : WObj), W[p]? = some w → ContractNo buf w.C w.k →
          CalledWith buf (cs'.map fun e => (e.1, Outcome.ok e.2)) ((sched.order cs').map fun e => (e, Outcome.ok ())) (.ok ()) p := by
        intro p w hw hno
        have hn := hI.num w (List.mem_of_getElem? hw)
        have hkl := (List.getElem?_eq_some_iff.1 hn).1
        have : w.C ∈ cs'.map Prod.fst := by
          rw [e1]; exact (hmem' _).2 (List.mem_map.2 ⟨_, List.mem_of_getElem? hn, rfl⟩)
        obtain ⟨⟨C1, h1⟩, m1, e2⟩ := List.mem_map.1 this
        simp only at e2; subst e2
        exact ⟨w.C, w.C, h1, w.k, w.table, BitVec.ofNat 16 w.k, List.mem_map.2 ⟨_, hperm.mem_iff.2 m1, rfl⟩,
          List.mem_map.2 ⟨_, m1, rfl⟩, hno, hO.obj.2 ⟨w, hw, rfl⟩, rfl, by simp; omega⟩
      have hprimary : ∀ (C : ContractTy) (h o : Idx), (C, h) ∈ cs → o ∈ objectsOf b h →
          ∃ (p : Nat) (w : WObj), W[p]? = some w ∧ ContractNo buf w.C w.k ∧ w.o = o ∧ w.C = C ∧ w.h = h := by
        intro C h o hC ho
        obtain ⟨k, h1, h2⟩ := hcon C h hC
        obtain ⟨p, w, q1, q2, q3, q4, q5⟩ := rep_cover hI h2 ho
        exact ⟨p, w, q1, by rw [q4, q2]; exact h1, q3, q4, q5⟩
      -- a repeated contract is not described by its last table
      have hlastNo : ∀ (C : ContractTy) (h : Idx) (c : Nat), cs[c]? = some (C, h) → ContractNo buf C c → Twice cs h →
          ¬ ∀ (k : Nat) (C' : ContractTy), cs[k]? = some (C', h) → k ≤ c := by
        rintro C h c hc ⟨tb, t, u1, u2, u3, u4⟩ ⟨i, j, Ci, Cj, hij, hi, hj⟩ hmax
        have low : ∀ (k : Nat) (C' : ContractTy), cs[k]? = some (C', h) → ¬ k < c := by
          intro k C' hk hlt
          have := hty _ _ _ (List.mem_of_getElem? hk) (List.mem_of_getElem? hc)
          subst this
          obtain ⟨t', z1, z2⟩ := htbl k _ _ hk
          rw [htb1] at u1; injection u1 with u1; subst u1
          exact u4 k t' hlt z1 z2
        have := low i _ hi
        have := low j _ hj
        have := hmax i _ hi
        have := hmax j _ hj
        omega
      refine hbad ⟨?_, ?_⟩
      · intro C h o n f v h' hC ho hf ht hv hvm htw
        obtain ⟨p, w, hw, hno, rfl, rfl, rfl⟩ := hprimary C h o hC ho
        obtain ⟨x, hx, _, q, _⟩ := rep_field hI hw hf
        have hq := q v ht hv
        obtain ⟨val, hval, hden⟩ := hlast _ x hx
        rw [hq] at hden
        cases hden with
        | object r _ hr' =>
          have hi : w.start + n ∈ stateIdxs w.table :=
            List.mem_of_getElem? (((written_idx hI hst hw).2 n _).2 ⟨(List.getElem?_eq_some_iff.1 hf).1, rfl⟩)
          obtain ⟨C1, C0, h0, k, obj, c, g1, g2, g3, g4, g5, g6⟩ :=
            ((C54_finish_ok_iff hrun (fun e he => by obtain ⟨_, _, rfl⟩ := List.mem_map.1 he; rfl) ord hord).1.1
              (by rw [hfin]; rfl)) p _ w.table r (hcalled p w hw hno) (hO.obj.2 ⟨w, hw, rfl⟩) hi hval
          obtain ⟨u, hu, rfl⟩ := hO.obj.1 g4
          obtain ⟨⟨u', hu', huo⟩, hmax⟩ := hr'
          rw [hu] at hu'; injection hu' with hu'; subst hu'
          have hn := hI.num u (List.mem_of_getElem? hu)
          have hkl := (List.getElem?_eq_some_iff.1 hn).1
          have huk : u.k = k := by
            simp only [WObj.table, Option.some.injEq] at g5
            subst g5
            simp at g6; omega
          obtain ⟨h2, m2⟩ := hcs' C0 h0 g2
          have hk' := hconInv C0 h2 k m2 g3
          rw [← huk, hn] at hk'
          injection hk' with hk'; injection hk' with n1 n2
          have huh : u.h = h' := listed_once hH (hlist u (List.mem_of_getElem? hu)).2 (by rw [huo]; exact hvm)
          rw [← huh] at htw
          refine hlastNo u.C u.h u.k hn (by rw [n1, huk]; exact g3) htw ?_
          intro k' C' hk2
          obtain ⟨p2, w2, z1, z2, z3, _⟩ := rep_cover hI hk2 (by rw [huh]; exact hvm)
          have := hI.kMono p2 _ w2 u z1 hu (hmax p2 w2 z1 z3)
          rw [← z2]; exact this
      · intro C h o n f v hC ho hf ht hv htw
        obtain ⟨p, w, hw, hno, rfl, rfl, rfl⟩ := hprimary C h o hC ho
        obtain ⟨x, hx, _, _, q⟩ := rep_field hI hw hf
        have hq := q v ht hv
        obtain ⟨val, hval, hden⟩ := hlast _ x hx
        rw [hq] at hden
        cases hden with
        | contract c _ hc' =>
          obtain ⟨⟨C', hc⟩, hmax⟩ := hc'
          obtain ⟨number, _, g2, g3⟩ := C60_faithful hrun ord hord hfin
          obtain ⟨o', ob', z1, z2⟩ := g2 p (hcalled p w hw hno)
          obtain ⟨C1, r1, obj, y1, y2, y3, y4, _, _, y5⟩ := g3 o' ob' z1
          rw [z2] at y2
          obtain ⟨w1, hw1, rfl⟩ := hO.obj.1 y2
          rw [hw] at hw1; injection hw1 with hw1; subst hw1
          have hi : (stateIdxs w.table)[n]? = some (w.start + n) :=
            ((written_idx hI hst hw).2 n _).2 ⟨(List.getElem?_eq_some_iff.1 hf).1, rfl⟩
          have hl := (List.getElem?_eq_some_iff.1 hi).1
          obtain ⟨v2, val2, x1, _, x3⟩ := y5 n _ _ _ (List.getElem?_eq_getElem (by omega)) hi
            (List.getElem?_eq_getElem (by omega))
          have := same _ _ _ x1 hval
          subst this
          generalize DynProp.ofTyped _ val2 = q2 at x3
          cases x3 with
          | contract _ h3 hc3 =>
            obtain ⟨C2, m2, no2⟩ := hc3
            obtain ⟨h4, m4⟩ := hcs' C2 h3 m2
            have k1 := hconInv C2 h4 _ m4 no2
            rw [hc] at k1; injection k1 with k1; injection k1 with k1 k2
            exact hlastNo C' v c.toNat hc (by rw [k1]; exact no2) htw hmax
  intro hnr hsz Cs' hnd' hmem' kind' sched ord hord
  have hmemcs : ∀ C ∈ Cs', ∃ h, (C, h) ∈ cs := by
    intro C hC
    obtain ⟨⟨C1, h⟩, m, rfl⟩ := List.mem_map.1 ((hmem' C).1 hC)
    exact ⟨h, m⟩
  have hincs : ∀ (C : ContractTy) (h : Idx), (C, h) ∈ cs → C ∈ Cs' := fun C h m =>
    (hmem' C).2 (List.mem_map.2 ⟨_, m, rfl⟩)
  have hR : Restorable buf Cs' := by
    refine ⟨?_, ?_, ?_, ?_, ?_, ?_, ?_⟩
    · intro C hC
      obtain ⟨h, m⟩ := hmemcs C hC
      obtain ⟨k, e, _⟩ := hcon C h m
      exact ⟨k, e⟩
    · intro _ _ _ _ _; obtain ⟨sts, h, _⟩ := hO.states; exact ⟨sts, h⟩
    · intro C k p obj c hC hk ho hc hck
      refine ⟨⟨c, hc, hck⟩, ?_⟩
      obtain ⟨w, hw, rfl⟩ := hO.obj.1 ho
      have hn := hI.num w (List.mem_of_getElem? hw)
      have hkl := (List.getElem?_eq_some_iff.1 hn).1
      have hwk : w.k = k := by
        simp only [WObj.table, Option.some.injEq] at hc
        subst hc
        simp at hck; omega
      obtain ⟨h, m⟩ := hmemcs C hC
      have hk' := hconInv C h k m hk
      rw [hwk, hk'] at hn
      injection hn with hn; injection hn with n1 n2
      subst n1
      obtain ⟨l1, l2⟩ := written_idx hI hst hw
      refine ⟨l1, ?_⟩
      intro n i f h1 h2
      obtain ⟨_, rfl⟩ := (l2 n i).1 h1
      obtain ⟨x, hx, _, hxd⟩ := hI.objs.fields p w hw n f h2
      obtain ⟨v, hv, hd⟩ := hO.slots _ x hx
      have := denotes_prop hd
      rw [noSign_propType, WSlot.prop, DynProp.propType_ofTyped, hxd, Option.map_eq_some_iff] at this
      obtain ⟨q, e1, e2⟩ := this
      exact ⟨v, q, hv, e1, e2.symm⟩
    · intro p p' n n' i obj obj' _ _ _ h1 h2 h3 h4 _
      obtain ⟨w, hw, rfl⟩ := hO.obj.1 h1
      obtain ⟨w', hw', rfl⟩ := hO.obj.1 h2
      obtain ⟨a1, rfl⟩ := ((written_idx hI hst hw).2 n i).1 h3
      obtain ⟨b1, b2⟩ := ((written_idx hI hst hw').2 n' _).1 h4
      have := hI.objs.disjoint p p' n n' w w' hw hw' a1 b1 b2
      subst this
      rw [hw] at hw'; injection hw' with hw'; subst hw'
      exact ⟨rfl, by omega⟩
    · intro p i obj _ ho hi hs
      obtain ⟨x, v, _, h1, h2⟩ := hslot p i obj ho hi
      have := same i _ _ hs h1
      subst this
      cases h2
    · intro p i obj c _ ho hi hs
      obtain ⟨x, v, hx, h1, h2⟩ := hslot p i obj ho hi
      have := same i _ _ hs h1
      subst this
      obtain ⟨p', w', n', f', z1, _, z3, _, _, z5⟩ := rep_slot hI hx
      generalize hq : noSign x.prop = q at h2
      cases h2 with
      | contract _ h hc =>
        obtain ⟨C', hc⟩ := hc
        obtain ⟨t, hv⟩ := z5 h (noSign_con hq)
        obtain ⟨l1, l2⟩ := hlist w' (List.mem_of_getElem? z1)
        exact ⟨C', hincs _ _ (List.mem_of_getElem? hc), hconOnce _ _ _ hc (hnr.contracts _ _ _ _ _ _ l1 l2 z3 t hv)⟩
    · intro p i obj r _ ho hi hs
      obtain ⟨x, v, hx, h1, h2⟩ := hslot p i obj ho hi
      have := same i _ _ hs h1
      subst this
      obtain ⟨p', w', n', f', z1, _, z3, _, z4, _⟩ := rep_slot hI hx
      generalize hq : noSign x.prop = q at h2
      cases h2 with
      | object _ o hc =>
        obtain ⟨u, hu, rfl⟩ := hc
        obtain ⟨t, hv⟩ := z4 _ (noSign_obj hq)
        obtain ⟨l1, l2⟩ := hlist w' (List.mem_of_getElem? z1)
        obtain ⟨m1, m2⟩ := hlist u (List.mem_of_getElem? hu)
        have hn := hI.num u (List.mem_of_getElem? hu)
        have hkl := (List.getElem?_eq_some_iff.1 hn).1
        exact ⟨u.C, hincs _ _ m1, u.k, u.table, BitVec.ofNat 16 u.k,
          hconOnce _ _ _ hn (hnr.objects _ _ _ _ _ _ _ l1 l2 z3 t hv m2), hO.obj.2 ⟨u, hu, rfl⟩, rfl, by simp; omega⟩
  have hids' : (Cs'.map ContractTy.id).Nodup := by
    refine nodup_of_getElem? fun n n' x h1 h2 => ?_
    rw [List.getElem?_map, Option.map_eq_some_iff] at h1 h2
    obtain ⟨C, a1, a2⟩ := h1
    obtain ⟨C', b1, b2⟩ := h2
    obtain ⟨h, m⟩ := hmemcs C (List.mem_of_getElem? a1)
    obtain ⟨h', m'⟩ := hmemcs C' (List.mem_of_getElem? b1)
    have := (hidC _ _ _ _ m m' (a2.trans b2.symm)).1
    subst this
    exact (List.getElem?_inj (l := Cs') (List.getElem?_eq_some_iff.1 a1).1 hnd').1 (a1.trans b1.symm)
  obtain ⟨cs', b', number, r1, r2, r3, r4, r5, r6, r7, r8⟩ := C62_complete_buffers_restore hR hids'
    (fun C hC => by obtain ⟨h, m⟩ := hmemcs C hC; exact hnull _ m)
    (fun C hC hne p hp => by
      obtain ⟨h, m⟩ := hmemcs C hC
      obtain ⟨C1, hC1, k, obj, c, q1, q2, q3, q4⟩ := hp
      simp only [List.mem_singleton] at hC1; subst hC1
      obtain ⟨w, hw, rfl⟩ := hO.obj.1 q2
      have hn := hI.num w (List.mem_of_getElem? hw)
      have hkl := (List.getElem?_eq_some_iff.1 hn).1
      have hwk : w.k = k := by
        simp only [WObj.table, Option.some.injEq] at q3
        subst q3
        simp at q4; omega
      have hk' := hconInv C1 h k m q1
      rw [hwk, hk'] at hn
      injection hn with hn; injection hn with n1 n2
      have l2 := (hlist w (List.mem_of_getElem? hw)).2
      rw [← n2, hch C1 h m hne] at l2
      cases l2) (by rw [Output.tables hI hO]; exact hsz) kind' sched ord hord
  have hcs'mem : ∀ (C : ContractTy) (h' : Idx), (C, h') ∈ cs' → C ∈ Cs' := by
    intro C h' m; rw [← r2]; exact List.mem_map.2 ⟨_, m, rfl⟩
  have hcs'fst : ∀ (C : ContractTy) (h1 h2 : Idx), (C, h1) ∈ cs' → (C, h2) ∈ cs' → h1 = h2 := by
    intro C h1 h2 m1 m2
    obtain ⟨n1, e1⟩ := List.getElem?_of_mem m1
    obtain ⟨n2, e2⟩ := List.getElem?_of_mem m2
    have : n1 = n2 := (List.getElem?_inj (l := Cs')
      (by rw [← r2]; simpa using (List.getElem?_eq_some_iff.1 e1).1) hnd').1 (by rw [← r2]; simp [e1, e2])
    subst this
    rw [e1] at e2; injection e2 with e2; injection e2
  have hcs'snd : ∀ (C1 C2 : ContractTy) (h : Idx), (C1, h) ∈ cs' → (C2, h) ∈ cs' → C1 = C2 := by
    intro C1 C2 h m1 m2
    obtain ⟨i1, e1⟩ := List.getElem?_of_mem m1
    obtain ⟨i2, e2⟩ := List.getElem?_of_mem m2
    have := snd_inj r3 e1 e2
    subst this
    rw [e1] at e2; injection e2 with e2; injection e2
  have hψex : ∃ ψ : Idx → Idx, ∀ (C : ContractTy) (h : Idx), (C, h) ∈ cs → (C, ψ h) ∈ cs' := by
    have : ∀ h : Idx, ∃ h' : Idx, ∀ C : ContractTy, (C, h) ∈ cs → (C, h') ∈ cs' := by
      intro h
      by_cases hx : ∃ C, (C, h) ∈ cs
      · obtain ⟨C, hC⟩ := hx
        have : C ∈ cs'.map Prod.fst := by rw [r2]; exact hincs C h hC
        obtain ⟨⟨C1, h'⟩, m, rfl⟩ := List.mem_map.1 this
        refine ⟨h', fun C2 hC2 => ?_⟩
        have := hty _ _ _ hC hC2
        subst this; exact m
      · exact ⟨h, fun C hC => absurd ⟨C, hC⟩ hx⟩
    exact ⟨fun h => (this h).choose, fun C h hC => (this h).choose_spec C hC⟩
  obtain ⟨ψ, hψ⟩ := hψex
  have hcs'back : ∀ (C : ContractTy) (h' : Idx), (C, h') ∈ cs' → ∃ h, (C, h) ∈ cs ∧ ψ h = h' := by
    intro C h' hm
    obtain ⟨h, m⟩ := hmemcs C (hcs'mem C h' hm)
    exact ⟨h, m, hcs'fst _ _ _ (hψ _ _ m) hm⟩
  -- the objects that count are those written under the first table of their contract
  have hprim : ∀ (p p' : Nat) (w w' : WObj), W[p]? = some w → W[p']? = some w' → ContractNo buf w.C w.k →
      ContractNo buf w'.C w'.k → w.o = w'.o → p = p' := by
    intro p p' w w' hw hw' c1 c2 e
    obtain ⟨a1, a2⟩ := hlist w (List.mem_of_getElem? hw)
    obtain ⟨b1, b2⟩ := hlist w' (List.mem_of_getElem? hw')
    rw [← e] at b2
    have hh : w.h = w'.h := listed_once hH a2 b2
    rw [← hh] at b1
    have hC := hty _ _ _ a1 b1
    rw [← hC] at c2
    have hk : w.k = w'.k := contractNo_unique c1 c2
    -- one table per object in a class
    obtain ⟨cd, q1, q2⟩ := hI.members w.k w.C w.h (hI.num w (List.mem_of_getElem? hw))
    have hnd : ((W.filter fun v => v.k = w.k).map WObj.o).Nodup := q2.nodup_iff.2 (hB.c.nodup w.h cd q1)
    exact class_inj W WObj.o hw hw' rfl hk.symm hnd e
  have hφex : ∃ φ : Idx → Idx, ∀ (p : Nat) (w : WObj), W[p]? = some w → ContractNo buf w.C w.k →
      ∃ ob', b'.object (φ w.o) = .ok ob' ∧ number (φ w.o) = p := by
    have : ∀ o : Idx, ∃ o' : Idx, ∀ (p : Nat) (w : WObj), W[p]? = some w → ContractNo buf w.C w.k → w.o = o →
        ∃ ob', b'.object o' = .ok ob' ∧ number o' = p := by
      intro o
      by_cases hx : ∃ (p : Nat) (w : WObj), W[p]? = some w ∧ ContractNo buf w.C w.k ∧ w.o = o
      · obtain ⟨p, w, hw, hno, rfl⟩ := hx
        have hn := hI.num w (List.mem_of_getElem? hw)
        have hl := (List.getElem?_eq_some_iff.1 hn).1
        obtain ⟨o', ob', g1, g2⟩ := r7 p ⟨w.C, hincs _ _ (List.mem_of_getElem? hn),
          w.k, w.table, BitVec.ofNat 16 w.k, hno, hO.obj.2 ⟨w, hw, rfl⟩, rfl, by simp; omega⟩
        refine ⟨o', fun p' w' hw' hno' e => ?_⟩
        have := hprim p p' w w' hw hw' hno hno' e.symm
        subst this
        exact ⟨ob', g1, g2⟩
      · exact ⟨o, fun p w hw hno e => absurd ⟨p, w, hw, hno, e⟩ hx⟩
    exact ⟨fun o => (this o).choose, fun p w hw hno => (this w.o).choose_spec p w hw hno rfl⟩
  obtain ⟨φ, hφ⟩ := hφex
  have hfull : ∀ (o' : Idx) (ob' : ObjectD), b'.object o' = .ok ob' → ∀ w : WObj, W[number o']? = some w →
      ContractNo buf w.C w.k ∧ ob'.contract = ψ w.h ∧ ob'.states.length = w.C.states.length ∧
      ∀ (n : Nat) (f : Field) (j : Idx), w.C.states[n]? = some f → ob'.states[n]? = some j →
        ∃ v val, StateAt buf (w.start + n) v ∧ b'.state f.ty j = .ok val ∧
          Denotes (fun c h => ∃ C', (C', h) ∈ cs' ∧ ContractNo buf C' c)
            (fun r o' => number o' = r ∧ ∃ ob', b'.object o' = .ok ob') v (DynProp.ofTyped f.ty val) := by
    intro o' ob' hob' w hw
    obtain ⟨C, k, obj, g1, g2, g3, g4, g5, _, _, g8⟩ := r8 _ _ hob'
    obtain ⟨w1, hw1, rfl⟩ := hO.obj.1 g3
    rw [hw] at hw1; injection hw1 with hw1; subst hw1
    obtain ⟨h, m, he⟩ := hcs'back C _ g1
    have hk := hconInv C h k m g2
    have hn := hI.num w (List.mem_of_getElem? hw)
    have hl := (List.getElem?_eq_some_iff.1 hn).1
    obtain ⟨⟨c, c1, c2⟩, _⟩ := g4
    have : w.k = k := by
      simp only [WObj.table, Option.some.injEq] at c1
      subst c1
      simp at c2; omega
    subst this
    rw [hn] at hk; injection hk with hk; injection hk with k1 k2
    subst k1 k2
    refine ⟨g2, he.symm, g5, ?_⟩
    intro n f j h1 h2
    exact g8 n (w.start + n) f j h1 (((written_idx hI hst hw).2 n _).2 ⟨(List.getElem?_eq_some_iff.1 h1).1, rfl⟩) h2
  have hback : ∀ (o' : Idx) (ob' : ObjectD), b'.object o' = .ok ob' → ∃ w, W[number o']? = some w ∧ o' = φ w.o := by
    intro o' ob' ho'
    obtain ⟨_, _, obj, _, _, g3, _⟩ := r8 o' ob' ho'
    obtain ⟨w, hw, rfl⟩ := hO.obj.1 g3
    obtain ⟨ob2, e1, e2⟩ := hφ _ w hw (hfull o' ob' ho' w hw).1
    exact ⟨w, hw, r6 _ _ _ _ ho' e1 e2.symm⟩
  have hcovW : ∀ (C : ContractTy) (h o : Idx), (C, h) ∈ cs → o ∈ objectsOf b h →
      ∃ (p : Nat) (w : WObj), W[p]? = some w ∧ ContractNo buf w.C w.k ∧ w.o = o ∧ w.C = C ∧ w.h = h := by
    intro C h o hC ho
    obtain ⟨k, e1, hk⟩ := hcon C h hC
    obtain ⟨cd, e2, e3⟩ := hI.members k C h hk
    have ho : o ∈ cd.objects := by unfold objectsOf at ho; rw [contractData_ok.2 e2] at ho; exact ho
    obtain ⟨w, hw, e⟩ := List.mem_map.1 (e3.mem_iff.2 ho)
    obtain ⟨hw, hwk⟩ := List.mem_filter.1 hw
    simp only [decide_eq_true_eq] at hwk
    have := hI.num w hw
    rw [hwk, hk] at this
    injection this with this; injection this with t1 t2
    obtain ⟨p, hp⟩ := List.getElem?_of_mem hw
    exact ⟨p, w, hp, by rw [hwk, ← t1]; exact e1, e, t1.symm, t2.symm⟩
  refine ⟨cs', b', φ, ψ, r1, ⟨?_, ?_, ?_, ?_, ?_, ?_, ?_, ?_⟩⟩
  · intro C h'
    exact ⟨hcs'back C h', fun ⟨h, m, e⟩ => by rw [← e]; exact hψ _ _ m⟩
  · intro C1 C2 h1 h2 m1 m2 e
    have n1 := hψ _ _ m1
    have n2 := hψ _ _ m2
    rw [← e] at n2
    have := hcs'snd _ _ _ n1 n2
    subst this
    exact ids_inj hP hH m1 m2 rfl
  · intro h' cd' hcd'
    obtain ⟨C, hC⟩ := r5 h' cd' hcd'
    obtain ⟨h, m, e⟩ := hcs'back C h' hC
    exact ⟨C, h, m, e⟩
  · intro C h m
    obtain ⟨cd, a1, a2⟩ := hP.registered C h m
    obtain ⟨cd', b1, b2, b3⟩ := r4 C (ψ h) (hψ _ _ m)
    refine ⟨cd, cd', a1, b1, b2.trans a2.symm, fun o' => ?_⟩
    have hob : objectsOf b h = cd.objects := by unfold objectsOf; rw [a1]
    rw [b3]
    constructor
    · rintro ⟨ob', e1, e2⟩
      obtain ⟨w, hw, ew⟩ := hback o' ob' e1
      obtain ⟨_, f1, _⟩ := hfull o' ob' e1 w hw
      obtain ⟨l1, l2⟩ := hlist w (List.mem_of_getElem? hw)
      rw [e2] at f1
      have n2 := hψ _ _ l1
      rw [← f1] at n2
      have := hcs'snd _ _ _ (hψ _ _ m) n2
      subst this
      have := ids_inj hP hH m l1 rfl
      subst this
      exact ⟨w.o, by rw [← hob]; exact l2, ew.symm⟩
    · rintro ⟨o, ho, rfl⟩
      obtain ⟨p, w, hw, hno, rfl, rfl, rfl⟩ := hcovW C h o m (by rw [hob]; exact ho)
      obtain ⟨ob', e1, e2⟩ := hφ p w hw hno
      exact ⟨ob', e1, (hfull _ ob' e1 w (by rw [e2]; exact hw)).2.1⟩
  · intro C1 C2 h1 h2 o1 o2 m1 m2 l1 l2 e
    obtain ⟨p1, w1, hw1, c1, rfl, _⟩ := hcovW C1 h1 o1 m1 l1
    obtain ⟨p2, w2, hw2, c2, rfl, _⟩ := hcovW C2 h2 o2 m2 l2
    obtain ⟨_, _, e1⟩ := hφ p1 w1 hw1 c1
    obtain ⟨_, _, e2⟩ := hφ p2 w2 hw2 c2
    rw [e, e2] at e1
    subst e1
    rw [hw1] at hw2; injection hw2 with hw2; rw [hw2]
  · intro o' ob' ho'
    obtain ⟨w, hw, e⟩ := hback o' ob' ho'
    obtain ⟨l1, l2⟩ := hlist w (List.mem_of_getElem? hw)
    exact ⟨w.C, w.h, w.o, l1, l2, e.symm⟩
  · intro C h o m l
    obtain ⟨p, w, hw, hno, rfl, rfl, rfl⟩ := hcovW C h o m l
    obtain ⟨ob', e1, e2⟩ := hφ p w hw hno
    exact ⟨ob', e1, (hfull _ ob' e1 w (by rw [e2]; exact hw)).2.1⟩
  · intro C h o n f m l hf
    obtain ⟨p, w, hw, hno, rfl, rfl, rfl⟩ := hcovW C h o m l
    obtain ⟨ob', e1, e2⟩ := hφ p w hw hno
    obtain ⟨_, f1, f2, f3⟩ := hfull _ ob' e1 w (by rw [e2]; exact hw)
    have hnl : n < ob'.states.length := by rw [f2]; exact (List.getElem?_eq_some_iff.1 hf).1
    obtain ⟨v, val, g1, g2, g3⟩ := f3 n f _ hf (List.getElem?_eq_getElem hnl)
    obtain ⟨x, hx, hxo, hxd⟩ := hI.objs.fields p w hw n f hf
    obtain ⟨v', q1, q2⟩ := hO.slots _ x hx
    obtain ⟨t1, t2, _⟩ := hI.objs.slots.slots _ x hx
    have hvv : v = v' := same _ _ _ g1 q1
    subst hvv
    rcases x with ⟨xo, xd, xh, xv⟩
    simp only at hxo hxd t1 t2
    subst hxo hxd
    simp only [hI.base] at t1 t2
    refine ⟨xv, val, ⟨xh, t1, t2⟩, ⟨ob'.states[n], ?_, g2⟩, ?_⟩
    · rw [bindState_of_get (object_ok.1 e1)]
      exact bindIdx_ok.2 ⟨f1.symm, List.getElem?_eq_getElem hnl⟩
    · refine denotes_both q2 g3 ?_ ?_
      · rintro c h h' ⟨C, hc⟩ ⟨C', m', no⟩
        obtain ⟨h1, m1, e1⟩ := hcs'back C' h' m'
        have k1 := hconInv C' h1 c m1 no
        rw [hc] at k1; injection k1 with k1; injection k1 with _ k1
        rw [← e1, k1]
      · rintro r o o' ⟨w', hw', rfl⟩ ⟨n1, ob2, n2⟩
        obtain ⟨w2, hw2, rfl⟩ := hback o' ob2 n2
        rw [n1, hw'] at hw2; injection hw2 with hw2
        rw [hw2]

/-- **C51, exactly (partial: the claim itself is false).** Let the contracts `cs` be such that, listed once each, they could be saved (their
objects refer to nothing else, the format can carry them), but let them occur any number of times.  All calls of the
serializer succeed.  The result decodes if and only if no repeated contract with objects has a handle state; and restoring
it gives the contents of the baseline if moreover no saved state refers to a repeated contract or to an object of one, and
is an error, never a panic, if one does. -/
theorem C51_exact_partial {kind : Kind} {evs : List Event} {b : Baseline} (hH : History kind evs b)
    {cs : List (ContractTy × Idx)} (hP : Serializable evs b cs) (hcl : Closed b cs)
    (hty : ∀ (C C' : ContractTy) (h : Idx), (C, h) ∈ cs → (C', h) ∈ cs → C = C')
    (hnull : ∀ e ∈ cs, e.1.id ≠ ⟨"teleportal.serialize.NullContract", (0, 0, 0)⟩)
    (hch : NoChannelObjects b cs) (hobj : objectCount b cs ≤ 2 ^ 32) (hst : stateCount b cs ≤ 2 ^ 32)
    (calls : List (ContractTy × Idx × HashOrder)) (hcalls : calls.map (fun c => (c.1, c.2.1)) = cs)
    (ordC ordO : IterOrder (Idx × Nat)) :
    ∃ (s : Ser) (out : FbOut), (Ser.new b).serializeAll calls = (s, .ok ()) ∧ s.finish ordC ordO = .ok out ∧
      ((∃ buf, out.decode = some buf) ↔ PlainRepeats b cs) ∧
      ∀ buf : FbBaseline, out.decode = some buf → ∀ (Cs' : List ContractTy), Cs'.Nodup →
        (∀ C : ContractTy, C ∈ Cs' ↔ C ∈ cs.map Prod.fst) →
        ∀ (kind' : Kind) (sched : IterOrder (ContractTy × Idx)) (ord : IterOrder (Nat × Idx)) (hord : HashOrder),
        (NoRefToRepeats b cs → savedTables b cs ≤ 1000000 →
          ∃ (cs' : List (ContractTy × Idx)) (b' : Baseline) (φ ψ : Idx → Idx),
            restore buf kind' Cs' sched ord hord = .ok (cs', b') ∧ SameContents b cs b' cs' φ ψ) ∧
        (¬ NoRefToRepeats b cs → (restore buf kind' Cs' sched ord hord).isErr = true) := by
  by_cases hpl : PlainRepeats b cs
  · obtain ⟨s, out, buf, e1, e2, e3, e4, e5⟩ := rep_round_trip hH hP hcl hty hpl hnull hch hobj hst calls hcalls ordC ordO
    refine ⟨s, out, e1, e2, ⟨fun _ => hpl, fun _ => ⟨buf, e3⟩⟩, ?_⟩
    intro buf' hb Cs' hnd hmem kind' sched ord hord
    rw [e3] at hb; injection hb with hb; subst hb
    exact ⟨fun h hs => e4 h hs Cs' hnd hmem kind' sched ord hord, fun h => e5 h Cs' hnd hmem kind' sched ord hord⟩
  · obtain ⟨s, hs⟩ := serializeAll_succeeds hP.storable hH calls (by
      intro c hc; rw [← hcalls]; exact List.mem_map.2 ⟨c, hc, rfl⟩) (serInv_new b) (by
      have := hP.few; rw [← hcalls] at this; simpa using this)
    obtain ⟨W, S, hI⟩ := serializeAll_ok (serInv_new b) hs
    rw [List.nil_append, hcalls] at hI
    rcases ser_finish_spec hI ordC ordO with ⟨⟨x, hx, hu⟩, _⟩ | ⟨_, out, a1, _⟩
    · exact absurd hu (rep_resolved hcl hI x hx)
    · have hnone : out.decode = none := by
        have : ∃ (C : ContractTy) (h o : Idx) (f : Field), Twice cs h ∧ (C, h) ∈ cs ∧ o ∈ objectsOf b h ∧ f ∈ C.states ∧
            (f.ty = .prim .objectHandle ∨ f.ty = .prim .contractDataHandle) := by
          apply Classical.byContradiction
          intro hne
          apply hpl
          intro C h o f h1 h2 h3 h4
          exact ⟨fun e => hne ⟨C, h, o, f, h1, h2, h3, h4, .inl e⟩, fun e => hne ⟨C, h, o, f, h1, h2, h3, h4, .inr e⟩⟩
        obtain ⟨C, h, o, f, ⟨i, j, Ci, Cj, hij, hi, hj⟩, hm, ho, hf, ht⟩ := this
        have e1 := hty _ _ _ (List.mem_of_getElem? hi) hm
        have e2 := hty _ _ _ (List.mem_of_getElem? hj) hm
        subst e1 e2
        rw [← hcalls, List.getElem?_map, Option.map_eq_some_iff] at hi hj
        obtain ⟨⟨Ci, hi', oi⟩, u1, u2⟩ := hi
        obtain ⟨⟨Cj, hj', oj⟩, v1, v2⟩ := hj
        simp only [Prod.mk.injEq] at u2 v2
        obtain ⟨rfl, rfl⟩ := u2
        obtain ⟨rfl, rfl⟩ := v2
        obtain ⟨n, hn⟩ := List.getElem?_of_mem hf
        exact C51_repeated_handles_break hij u1 v1 ho hn ht hs a1
      refine ⟨s, out, hs, a1, ⟨?_, fun h => absurd h hpl⟩, ?_⟩
      · rintro ⟨buf, hb⟩; rw [hnone] at hb; cases hb
      · intro buf hb; rw [hnone] at hb; cases hb

/-- **C51, partial.** If no state is a handle, contracts may be serialized any number of times, in any order: the buffer
decodes, and restoring it, if it is within the reader's limit of a million tables, gives the same contents.  (With handle states the claim is false, see above.) -/
theorem C51_repeats_without_handles_partial {kind : Kind} {evs : List Event} {b : Baseline} (hH : History kind evs b)
    {cs : List (ContractTy × Idx)} (hP : Serializable evs b cs)
    (hty : ∀ (C C' : ContractTy) (h : Idx), (C, h) ∈ cs → (C', h) ∈ cs → C = C')
    (hplain : ∀ (C : ContractTy) (h : Idx) (f : Field), (C, h) ∈ cs → f ∈ C.states →
      f.ty ≠ .prim .objectHandle ∧ f.ty ≠ .prim .contractDataHandle)
    (hnull : ∀ e ∈ cs, e.1.id ≠ ⟨"teleportal.serialize.NullContract", (0, 0, 0)⟩)
    (hch : NoChannelObjects b cs) (hobj : objectCount b cs ≤ 2 ^ 32) (hst : stateCount b cs ≤ 2 ^ 32)
    (calls : List (ContractTy × Idx × HashOrder)) (hcalls : calls.map (fun c => (c.1, c.2.1)) = cs)
    (ordC ordO : IterOrder (Idx × Nat)) :
    ∃ (s : Ser) (out : FbOut) (buf : FbBaseline), (Ser.new b).serializeAll calls = (s, .ok ()) ∧
      s.finish ordC ordO = .ok out ∧ out.decode = some buf ∧
      (savedTables b cs ≤ 1000000 → ∀ (Cs' : List ContractTy), Cs'.Nodup → (∀ C : ContractTy, C ∈ Cs' ↔ C ∈ cs.map Prod.fst) →
        ∀ (kind' : Kind) (sched : IterOrder (ContractTy × Idx)) (ord : IterOrder (Nat × Idx)) (hord : HashOrder),
        ∃ (cs' : List (ContractTy × Idx)) (b' : Baseline) (φ ψ : Idx → Idx),
          restore buf kind' Cs' sched ord hord = .ok (cs', b') ∧ SameContents b cs b' cs' φ ψ) := by
  have hmem : ∀ {C : ContractTy} {n : Nat} {f : Field}, C.states[n]? = some f → f ∈ C.states := fun h => List.mem_of_getElem? h
  obtain ⟨s, out, e1, e2, e3, e4⟩ := C51_exact_partial hH hP
    ⟨fun C h o n f v m _ hf ht _ => absurd ht (hplain C h f m (hmem hf)).1,
      fun C h o n f v m _ hf ht _ => absurd ht (hplain C h f m (hmem hf)).2⟩ hty hnull hch hobj hst calls hcalls ordC ordO
  obtain ⟨buf, hb⟩ := e3.2 fun C h o f _ m _ hf => hplain C h f m hf
  refine ⟨s, out, buf, e1, e2, hb, fun hs Cs' hnd hm kind' sched ord hord => ?_⟩
  exact (e4 buf hb Cs' hnd hm kind' sched ord hord).1
    ⟨fun C h o n f v h' m _ hf ht _ => absurd ht (hplain C h f m (hmem hf)).1,
      fun C h o n f v m _ hf ht _ => absurd ht (hplain C h f m (hmem hf)).2⟩ hs

/-- A baseline with two objects whose contract is serialized three times meets the hypotheses. -/
example (o1 o2 o3 : HashOrder) (ordC ordO : IterOrder (Idx × Nat)) : ∃ s out buf,
    (Ser.new plainB).serializeAll [(plainC, h0, o1), (plainC, h0, o2), (plainC, h0, o3)] = (s, .ok ()) ∧
    s.finish ordC ordO = .ok out ∧ out.decode = some buf := by
  obtain ⟨s, out, buf, e1, e2, e3, _⟩ := C51_repeats_without_handles_partial (kind := .fork) (runOps_trace _ _)
    plain_serializable (by simp) (by
      intro C h f hm hf
      have : C = plainC ∧ h = h0 := by simpa using hm
      obtain ⟨rfl, rfl⟩ := this
      simp [plainC] at hf; rcases hf with rfl | rfl <;> decide) (by decide) (.of_none (by decide)) (by decide +kernel) (by decide +kernel)
    [(plainC, h0, o1), (plainC, h0, o2), (plainC, h0, o3)] rfl ordC ordO
  exact ⟨s, out, buf, e1, e2, e3⟩

/-! The other case of `C51_exact_partial` occurs too: a repeated contract to which another one refers. -/

/-- An object without handles and a tag referring to its contract. -/
def refOps : List BOp :=
  [.register plainC, .register tagC,
   .create plainC h0 [.primitive (.u8 5), .primitive (.string "a")] [],
   .create tagC h1 [.primitive (.string "b"), .primitive (.contractDataHandle h0)] []]
def refB : Baseline := ((Baseline.new .fork).runOps refOps).2
def refEvs : List Event := ((Baseline.new .fork).runOps refOps).1
def refCs : List (ContractTy × Idx) := [(plainC, h0), (plainC, h0), (tagC, h1)]

theorem ref_events : refEvs = [(.register plainC, .ok (some h0)), (.register tagC, .ok (some h1)),
    (.create plainC h0 [.primitive (.u8 5), .primitive (.string "a")] [], .ok (some h0)),
    (.create tagC h1 [.primitive (.string "b"), .primitive (.contractDataHandle h0)] [], .ok (some h1))] := by rfl

theorem ref_objects : objectsOf refB h0 = [h0] ∧ objectsOf refB h1 = [h1] := by decide +kernel

theorem ref_cs {C : ContractTy} {h : Idx} (hm : (C, h) ∈ refCs) : (C = plainC ∧ h = h0) ∨ (C = tagC ∧ h = h1) := by
  simpa [refCs] using hm

theorem ref_serializable : Serializable refEvs refB refCs := by
  refine ⟨?_, ?_, ?_, ?_, by decide⟩
  · intro C h hm
    rcases ref_cs hm with ⟨rfl, rfl⟩ | ⟨rfl, rfl⟩
    · exact ⟨⟨plainC.id, [h0]⟩, by decide +kernel, rfl⟩
    · exact ⟨⟨tagC.id, [h1]⟩, by decide +kernel, rfl⟩
  · rintro C C' h o hm ⟨ss, cs, hc⟩
    rw [ref_events] at hc
    rcases ref_cs hm with ⟨rfl, rfl⟩ | ⟨rfl, rfl⟩ <;> simp [h0, h1] at hc <;> grind
  · intro C h o hm ho
    rcases ref_cs hm with ⟨rfl, rfl⟩ | ⟨rfl, rfl⟩
    · rw [ref_objects.1] at ho
      rw [List.mem_singleton.1 ho]
      exact ⟨_, rfl⟩
    · rw [ref_objects.2] at ho
      rw [List.mem_singleton.1 ho]
      exact ⟨_, rfl⟩
  · intro C h f hm hf
    rcases ref_cs hm with ⟨rfl, rfl⟩ | ⟨rfl, rfl⟩ <;>
      (simp [plainC, tagC] at hf; rcases hf with rfl | rfl <;> exact ⟨_, rfl⟩)

theorem ref_holds : Holds refB h1 h1 1 (.prim .contractDataHandle) h0 :=
  ⟨h0, by decide +kernel, rfl⟩

theorem ref_closed : Closed refB refCs := by
  refine ⟨?_, ?_⟩
  · rintro C h o n f v hm ho hf ht _
    rcases ref_cs hm with ⟨rfl, rfl⟩ | ⟨rfl, rfl⟩
    · rcases n with _ | _ | n <;> simp [plainC] at hf <;> subst hf <;> cases ht
    · rcases n with _ | _ | n <;> simp [tagC] at hf <;> subst hf <;> cases ht
  · rintro C h o n f v hm ho hf ht hv
    rcases ref_cs hm with ⟨rfl, rfl⟩ | ⟨rfl, rfl⟩
    · rcases n with _ | _ | n <;> simp [plainC] at hf <;> subst hf <;> cases ht
    · rw [ref_objects.2] at ho
      rw [List.mem_singleton.1 ho] at hv
      have hn : n = 1 := by
        rcases n with _ | _ | n <;> simp [tagC] at hf
        · subst hf; cases ht
        · rfl
      subst hn
      have : v = h0 := by
        obtain ⟨j, e1, e2⟩ := hv
        obtain ⟨j', e1', e2'⟩ := ref_holds
        rw [e1] at e1'; injection e1' with e1'; subst e1'
        rw [e2] at e2'; injection e2'
      subst this
      exact ⟨plainC, by decide⟩

/-- The buffer decodes, but restoring it fails, whatever the iteration orders. -/
example (o1 o2 o3 : HashOrder) (ordC ordO : IterOrder (Idx × Nat)) (sched : IterOrder (ContractTy × Idx))
    (ord : IterOrder (Nat × Idx)) (hord : HashOrder) : ∃ s out buf,
    (Ser.new refB).serializeAll [(plainC, h0, o1), (plainC, h0, o2), (tagC, h1, o3)] = (s, .ok ()) ∧
    s.finish ordC ordO = .ok out ∧ out.decode = some buf ∧
    (restore buf .fork [plainC, tagC] sched ord hord).isErr = true := by
  have htw : Twice refCs h0 := ⟨0, 1, plainC, plainC, by decide, rfl, rfl⟩
  have honce : ¬ Twice refCs h1 := by
    rintro ⟨i, j, C, C', hij, hi, hj⟩
    have a : ∀ (i : Nat) (C : ContractTy), refCs[i]? = some (C, h1) → i = 2 := by
      intro i C h
      rcases i with _ | _ | _ | i <;> simp [refCs, h0, h1] at h ⊢
    exact hij ((a _ _ hi).trans (a _ _ hj).symm)
  obtain ⟨s, out, e1, e2, e3, e4⟩ := C51_exact_partial (kind := .fork) (evs := refEvs) (b := refB) (runOps_trace _ _)
    ref_serializable ref_closed (by
      intro C C' h m m'
      rcases ref_cs m with ⟨rfl, rfl⟩ | ⟨rfl, rfl⟩ <;> rcases ref_cs m' with ⟨rfl, h⟩ | ⟨rfl, h⟩ <;>
        first | rfl | exact absurd h (by decide)) (by decide) (.of_none (by decide)) (by decide +kernel) (by decide +kernel)
    [(plainC, h0, o1), (plainC, h0, o2), (tagC, h1, o3)] rfl ordC ordO
  obtain ⟨buf, hb⟩ := e3.2 (by
    intro C h o f ht hm _ hf
    rcases ref_cs hm with ⟨rfl, rfl⟩ | ⟨rfl, rfl⟩
    · simp [plainC] at hf; rcases hf with rfl | rfl <;> decide
    · exact absurd ht honce)
  refine ⟨s, out, buf, e1, e2, hb, (e4 buf hb [plainC, tagC] (by decide) (by simp [refCs]) .fork sched ord hord).2 ?_⟩
  intro hno
  exact hno.contracts tagC h1 h1 1 _ h0 (by decide) (by rw [ref_objects.2]; decide) rfl rfl ref_holds htw

end Verif.Props
