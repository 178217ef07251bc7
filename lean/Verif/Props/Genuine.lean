import Verif.Proofs.Genuine
import Verif.Props.Bytes
/-!
# C132, C133: files written by this library, whoever reads them
-/
namespace Verif.Props
open Verif Verif.Spec Verif.Fb

/-! ## C132: a saved file does not crash or confuse its reader -/

/-- **C132.** Whatever was saved (any contracts of any baseline, in any order, repeated or not, used with any types), neither the file nor a
beginning of it ever makes a reader panic, whichever contract types it asks for. -/
theorem C132_never_panics {c : Cycle} {b : Baseline} {bytes : Bytes} (h : c.save b = .ok bytes) (hl : bytes.length < 2 ^ 31) {file : Bytes}
    (hf : CutTo bytes file) (d : Cycle) : (d.load file).isPanic = false := by
  obtain ⟨s, out, h1, h2, h3⟩ := saved_file h hl
  have hw : (d.load bytes).isPanic = false := by
    cases hd : out.decode with
    | none =>
      rw [show d.load bytes = .err "Error while verifying flatbuffer" from restoreBytes_none (by rw [h3, hd]) ..]
      rfl
    | some buf =>
      rw [show d.load bytes = restore buf d.kind d.types d.sched d.ord d.hord from restoreBytes_some (by rw [h3, hd]) ..]
      exact C55_restore_no_panic_partial (NoHidden.inside (genuine_tables h1 h2 hd).1 _) ..
  rcases C128_cut_files hf d with e | e
  · rw [e]; rfl
  · rw [e]; exact hw

theorem describes_same {t : FbContract} {C D : ContractTy} (h1 : Describes t C) (h2 : Describes t D) : C.id = D.id ∧ C.states = D.states := by
  obtain ⟨a1, k1, a2, a3⟩ := h1
  obtain ⟨b1, k2, b2, b3⟩ := h2
  rw [a1] at b1
  rw [a2] at b2
  simp only [Option.some.injEq, FbContractId.mk.injEq, FbContractStates.mk.injEq] at b1 b2
  have hk : k1 = k2 := List.map_injective_iff.2 (Option.some_injective _) b2.2
  subst hk
  refine ⟨?_, ?_⟩
  · cases hC : C.id; cases hD : D.id
    rw [hC, hD] at b1
    simp only at b1
    rw [b1.1, b1.2]
  · have hn := b2.1
    have ht := a3.trans b3.symm
    generalize C.states = l at hn ht
    generalize D.states = m at hn ht
    induction l generalizing m with
    | nil => cases m with
      | nil => rfl
      | cons x m => simp at hn
    | cons x l ih => cases m with
      | nil => simp at hn
      | cons y m =>
        simp only [List.map_cons, List.cons.injEq] at hn ht
        obtain ⟨nx, tx⟩ := x
        obtain ⟨ny, ty⟩ := y
        rw [ih m hn.2 ht.2]
        simp only at hn ht
        rw [hn.1, ht.1]

/-- **C132.** What a reader gets from a saved file it gets only with the types the file was written with: every type it asked for has the name, the
version and the states (names and types, in order) of one of the contracts saved.  A program with another version of a contract
gets an error. -/
theorem C132_same_schema {c : Cycle} {b : Baseline} {bytes : Bytes} (h : c.save b = .ok bytes) (hl : bytes.length < 2 ^ 31) (d : Cycle) :
    (∀ x, d.load bytes = .ok x → ∀ C ∈ d.types, ∃ e ∈ c.calls, C.id = e.1.id ∧ C.states = e.1.states) ∧
    ∀ C ∈ d.types, (∀ e ∈ c.calls, C.id = e.1.id → C.states ≠ e.1.states) → (d.load bytes).isErr = true := by
  have hm : ∀ x, d.load bytes = .ok x → ∀ C ∈ d.types, ∃ e ∈ c.calls, C.id = e.1.id ∧ C.states = e.1.states := by
    intro x hx C hC
    obtain ⟨s, out, h1, h2, h3⟩ := saved_file h hl
    cases hd : out.decode with
    | none =>
      rw [show d.load bytes = .err "Error while verifying flatbuffer" from restoreBytes_none (by rw [h3, hd]) ..] at hx
      cases hx
    | some buf =>
      rw [show d.load bytes = restore buf d.kind d.types d.sched d.ord d.hord from restoreBytes_some (by rw [h3, hd]) ..] at hx
      obtain ⟨k, cs, t, a1, a2, a3, _⟩ := (restorable_of_ok hx).1.described C hC
      obtain ⟨_, tbls, b1, b2⟩ := genuine_tables h1 h2 hd
      rw [a1] at b1
      injection b1 with b1
      subst b1
      have : Outcome.ok t ∈ c.calls.map fun e => Ser.contractTable e.1 := by
        rw [b2]; exact List.mem_map.2 ⟨t, List.mem_of_getElem? a2, rfl⟩
      obtain ⟨e, he, et⟩ := List.mem_map.1 this
      exact ⟨e, he, describes_same a3 (contractTable_describes et)⟩
  refine ⟨hm, fun C hC hno => ?_⟩
  cases hx : d.load bytes with
  | err m => rfl
  | panic m =>
    have := C132_never_panics h hl ⟨[], (List.append_nil _).symm⟩ d
    rw [hx] at this
    cases this
  | ok x =>
    obtain ⟨e, he, e1, e2⟩ := hm x hx C hC
    exact absurd e2 (hno e he e1)

/-! The file of the tag is read by a program with the same type, and refused by one whose version of it has a state renamed, retyped, added or
moved. -/

/-- A reader that asks for these types. -/
def asking (Ts : List ContractTy) : Cycle := { mainCycle [] with types := Ts }

example : ((asking [tagC]).load tagFile).isOk = true := by decide +kernel
example : ∀ sts ∈ [[⟨"name", .prim .string⟩, ⟨"of", .prim .contractDataHandle⟩], [⟨"label", .prim .u8⟩, ⟨"of", .prim .contractDataHandle⟩],
    [⟨"label", .prim .string⟩, ⟨"of", .prim .contractDataHandle⟩, ⟨"x", .prim .u8⟩], [⟨"of", .prim .contractDataHandle⟩, ⟨"label", .prim .string⟩]],
    ((asking [{ tagC with states := sts }]).load tagFile).isErr = true := by
  intro sts hs
  refine (C132_same_schema tag_file (by decide +kernel) _).2 _ (List.mem_singleton.2 rfl) ?_
  intro e he _
  obtain rfl : e = (tagC, h0, ⟨id, fun _ => List.Perm.refl _⟩) := List.mem_singleton.1 he
  revert sts
  decide

/-! ## C133: exactly which parts of a file can be read -/

theorem contractNo_congr {buf : FbBaseline} {T C : ContractTy} (h1 : T.id = C.id) (h2 : T.states = C.states) {k : Nat} :
    ContractNo buf T k ↔ ContractNo buf C k := by
  unfold ContractNo Describes
  rw [h1, h2]

section
variable {kind : Kind} {evs : List Event} {b : Baseline} {cs parts : List (ContractTy × Idx)} {s : Ser} {W : List WObj} {S : List WSlot}
  {buf : FbBaseline}

/-- The tables of a part. -/
structure Tables (evs : List Event) (b : Baseline) (cs parts : List (ContractTy × Idx)) (W : List WObj) (S : List WSlot) (buf : FbBaseline) : Prop where
  con : ∀ (T : ContractTy) (h : Idx), (T, h) ∈ parts → ∃ (k : Nat) (C : ContractTy), cs[k]? = some (C, h) ∧ ContractNo buf T k ∧ T.states = C.states ∧ T.id = C.id
  conInv : ∀ (T : ContractTy) (h : Idx) (k : Nat), (T, h) ∈ parts → ContractNo buf T k → ∃ C, cs[k]? = some (C, h) ∧ T.states = C.states
  num : ∀ w ∈ W, cs[w.k]? = some (w.C, w.h)
  few : cs.length ≤ 65535
  obj : ∀ (p : Nat) (o : FbObject), ObjectAt buf p o ↔ ∃ w, W[p]? = some w ∧ o = w.table
  idx : ∀ (p : Nat) (w : WObj), W[p]? = some w → (stateIdxs w.table).length = w.C.states.length ∧
    ∀ n i : Nat, (stateIdxs w.table)[n]? = some i ↔ n < w.C.states.length ∧ i = w.start + n
  slot : ∀ (p : Nat) (w : WObj), W[p]? = some w → ∀ (n : Nat) (f : Field), w.C.states[n]? = some f → ∃ (v : FbVal) (x : f.ty.Carrier),
    StateAt buf (w.start + n) v ∧ Holds b w.h w.o n f.ty x ∧
    Denotes (fun c h => ∃ C, cs[c]? = some (C, h)) (fun r o => ∃ w, W[r]? = some w ∧ w.o = o) v (noSign (DynProp.ofTyped f.ty x))
  distinct : Distinct evs b cs W S
  nodup : (cs.map Prod.snd).Nodup

theorem tables_of (hP : Storable evs b cs) (hH : History kind evs b) (hnd : (cs.map Prod.snd).Nodup) (hst : stateCount b cs ≤ 2 ^ 32)
    (hI : SerInv b s cs W S) (hO : Output cs W S buf) (hs : SomeOf parts cs) : Tables evs b cs parts W S buf := by
  have hids := ids_nodup hP hH hnd
  have hcon : ∀ (T : ContractTy) (h : Idx), (T, h) ∈ parts → ∃ (k : Nat) (C : ContractTy), cs[k]? = some (C, h) ∧ ContractNo buf T k ∧ T.states = C.states ∧ T.id = C.id := by
    intro T h m
    obtain ⟨C, m', e1, e2⟩ := hs.2 T h m
    obtain ⟨k, hk⟩ := List.getElem?_of_mem m'
    exact ⟨k, C, hk, (contractNo_congr e1 e2).2 (hO.con hids hk), e2, e1⟩
  refine ⟨hcon, ?_, hI.num, hP.few, fun p o => hO.obj, fun p w hw => written_idx hI hst hw, ?_, serInv_distinct hP hH hnd hI, hnd⟩
  · intro T h k m hk
    obtain ⟨k', C, e1, e2, e3, _⟩ := hcon T h m
    have := contractNo_unique e2 hk
    subst this
    exact ⟨C, e1, e3⟩
  · intro p w hw n f hf
    obtain ⟨x, hx, hxo, hxd⟩ := hI.objs.fields p w hw n f hf
    obtain ⟨v, q1, q2⟩ := hO.slots _ x hx
    obtain ⟨t1, t2, _⟩ := hI.objs.slots.slots _ x hx
    rcases x with ⟨xo, xd, xh, xv⟩
    simp only at hxo hxd t1 t2
    subst hxo hxd
    simp only [hI.base] at t1 t2
    exact ⟨v, xv, q1, ⟨xh, t1, t2⟩, q2⟩

theorem stateAt_fun {i : Nat} {v v' : FbVal} (h1 : StateAt buf i v) (h2 : StateAt buf i v') : v = v' := by
  obtain ⟨s1, a1, a2⟩ := h1
  obtain ⟨s2, b1, b2⟩ := h2
  rw [a1] at b1; injection b1 with b1; subst b1
  rw [a2] at b2; injection b2

/-- The contract of a written object's table. -/
theorem Tables.number (hT : Tables evs b cs parts W S buf) {w : WObj} (hw : w ∈ W) {c : BitVec 16} (hc : w.table.contract = some c) : c.toNat = w.k := by
  have hl := (List.getElem?_eq_some_iff.1 (hT.num w hw)).1
  have := hT.few
  simp only [WObj.table, Option.some.injEq] at hc
  subst hc
  simp
  omega

/-- The objects of the types of a part. -/
theorem Tables.objectOf (hT : Tables evs b cs parts W S buf) {Ts : List ContractTy} (hTs : ∀ T : ContractTy, T ∈ Ts ↔ T ∈ parts.map Prod.fst) {p : Nat} :
    ObjectOf buf Ts p ↔ ∃ (w : WObj) (T : ContractTy), W[p]? = some w ∧ (T, w.h) ∈ parts := by
  constructor
  · rintro ⟨T, hTm, k, obj, c, e1, e2, e3, e4⟩
    obtain ⟨⟨T', h⟩, m, rfl⟩ := List.mem_map.1 ((hTs T).1 hTm)
    obtain ⟨w, hw, rfl⟩ := (hT.obj p obj).1 e2
    have hm := List.mem_of_getElem? hw
    have hk : w.k = k := (hT.number hm e3).symm.trans e4
    subst hk
    obtain ⟨C, h1, _⟩ := hT.conInv _ h _ m e1
    rw [hT.num w hm] at h1
    injection h1 with h1
    injection h1 with _ h1
    exact ⟨w, T', hw, h1 ▸ m⟩
  · rintro ⟨w, T, hw, m⟩
    have hm := List.mem_of_getElem? hw
    obtain ⟨k, C, e1, e2, _⟩ := hT.con T w.h m
    have hk : k = w.k := snd_inj hT.nodup e1 (hT.num w hm)
    subst hk
    refine ⟨T, (hTs T).2 (List.mem_map.2 ⟨_, m, rfl⟩), _, w.table, BitVec.ofNat 16 w.k, e2, (hT.obj p _).2 ⟨w, hw, rfl⟩, rfl, ?_⟩
    exact hT.number hm rfl

/-- The object written for `o`. -/
theorem Tables.cover (hT : Tables evs b cs parts W S buf) {T : ContractTy} {h o : Idx} (hm : (T, h) ∈ parts) (ho : o ∈ objectsOf b h) :
    ∃ (p : Nat) (w : WObj), W[p]? = some w ∧ w.o = o ∧ w.h = h ∧ w.C.states = T.states := by
  obtain ⟨k, C, e1, _, e3, _⟩ := hT.con T h hm
  obtain ⟨w, hw, a1, a2, a3⟩ := hT.distinct.cover C h o (List.mem_of_getElem? e1) ho
  obtain ⟨p, hp⟩ := List.getElem?_of_mem hw
  exact ⟨p, w, hp, a1, a3, by rw [a2, e3]⟩

/-- A part that refers to nothing outside of it can be restored. -/
theorem Tables.restorable (hT : Tables evs b cs parts W S buf) (hcl : Closed b parts) (hsts : ∃ sts, buf.states = some sts) {Ts : List ContractTy}
    (hTs : ∀ T : ContractTy, T ∈ Ts ↔ T ∈ parts.map Prod.fst) : Restorable buf Ts := by
  have hfield : ∀ (p i : Nat) (obj : FbObject), ObjectOf buf Ts p → ObjectAt buf p obj → i ∈ stateIdxs obj →
      ∃ (w : WObj) (T : ContractTy) (n : Nat) (f : Field) (v : FbVal) (x : f.ty.Carrier), W[p]? = some w ∧ (T, w.h) ∈ parts ∧
        T.states[n]? = some f ∧ StateAt buf i v ∧ w.o ∈ objectsOf b w.h ∧ Holds b w.h w.o n f.ty x ∧
        Denotes (fun c h => ∃ C, cs[c]? = some (C, h)) (fun r o => ∃ w, W[r]? = some w ∧ w.o = o) v (noSign (DynProp.ofTyped f.ty x)) := by
    intro p i obj h1 h2 hi
    obtain ⟨w, T, hw, m⟩ := (hT.objectOf hTs).1 h1
    obtain ⟨w', hw', rfl⟩ := (hT.obj p obj).1 h2
    rw [hw] at hw'; injection hw' with hw'; subst hw'
    obtain ⟨n, hn⟩ := List.getElem?_of_mem hi
    obtain ⟨hl, rfl⟩ := ((hT.idx p w hw).2 n i).1 hn
    obtain ⟨v, x, a1, a2, a3⟩ := hT.slot p w hw n _ (List.getElem?_eq_getElem hl)
    have hwm := List.mem_of_getElem? hw
    obtain ⟨k, C, e1, _, e3, _⟩ := hT.con T w.h m
    have hk := snd_inj hT.nodup e1 (hT.num w hwm)
    subst hk
    rw [hT.num w hwm] at e1; injection e1 with e1; injection e1 with e1 _
    subst e1
    exact ⟨w, T, n, _, v, x, hw, m, by rw [e3]; exact List.getElem?_eq_getElem hl, a1, (hT.distinct.listed w hwm).2, a2, a3⟩
  refine ⟨?_, fun _ _ _ _ _ => hsts, ?_, ?_, ?_, ?_, ?_⟩
  · intro T hTm
    obtain ⟨⟨T', h⟩, m, rfl⟩ := List.mem_map.1 ((hTs T).1 hTm)
    obtain ⟨k, _, _, e, _⟩ := hT.con _ h m
    exact ⟨k, e⟩
  · intro T k p obj c hTm hk ho hc hck
    refine ⟨⟨c, hc, hck⟩, ?_⟩
    obtain ⟨⟨T', h⟩, m, rfl⟩ := List.mem_map.1 ((hTs T).1 hTm)
    obtain ⟨w, hw, rfl⟩ := (hT.obj p obj).1 ho
    have hwm := List.mem_of_getElem? hw
    have hwk := (hT.number hwm hc).symm.trans hck
    subst hwk
    obtain ⟨C, e1, e2⟩ := hT.conInv _ h _ m hk
    rw [hT.num w hwm] at e1; injection e1 with e1; injection e1 with e1 e1'
    subst e1
    obtain ⟨l1, l2⟩ := hT.idx p w hw
    refine ⟨by rw [l1, e2], fun n i f h1 h2 => ?_⟩
    obtain ⟨_, rfl⟩ := (l2 n i).1 h1
    obtain ⟨v, x, a1, _, a3⟩ := hT.slot p w hw n f (by rw [← e2]; exact h2)
    have := denotes_prop a3
    rw [noSign_propType, DynProp.propType_ofTyped, Option.map_eq_some_iff] at this
    obtain ⟨q, g1, g2⟩ := this
    exact ⟨v, q, a1, g1, g2.symm⟩
  · intro p p' n n' i obj obj' _ _ _ h1 h2 h3 h4 _
    obtain ⟨w, hw, rfl⟩ := (hT.obj p obj).1 h1
    obtain ⟨w', hw', rfl⟩ := (hT.obj p' obj').1 h2
    obtain ⟨a1, rfl⟩ := ((hT.idx p w hw).2 n i).1 h3
    obtain ⟨b1, b2⟩ := ((hT.idx p' w' hw').2 n' _).1 h4
    exact hT.distinct.own p p' n n' w w' hw hw' a1 b1 b2
  · intro p i obj h1 h2 h3 h4
    obtain ⟨w, T, n, f, v, x, _, _, _, a1, _, _, a2⟩ := hfield p i obj h1 h2 h3
    have := stateAt_fun h4 a1
    subst this
    cases a2
  · intro p i obj c h1 h2 h3 h4
    obtain ⟨w, T, n, f, v, x, hw, m, hf, a1, hl, hh, a2⟩ := hfield p i obj h1 h2 h3
    have := stateAt_fun h4 a1
    subst this
    generalize hq : noSign (DynProp.ofTyped f.ty x) = q at a2
    cases a2 with
    | contract _ h hc =>
      obtain ⟨C, hC⟩ := hc
      have hx := noSign_con hq
      obtain ⟨nm, ty⟩ := f
      have ht := congrArg DynProp.propType hx
      rw [DynProp.propType_ofTyped] at ht
      have ht : ty = .prim .contractDataHandle := ht
      subst ht
      have hv : x = h := by simpa [DynProp.ofTyped] using hx
      subst hv
      obtain ⟨T', m'⟩ := hcl.contracts T w.h w.o n _ x m hl hf rfl hh
      obtain ⟨k, C', e1, e2, _⟩ := hT.con T' x m'
      have := snd_inj hT.nodup e1 hC
      subst this
      exact ⟨T', (hTs T').2 (List.mem_map.2 ⟨_, m', rfl⟩), e2⟩
  · intro p i obj r h1 h2 h3 h4
    obtain ⟨w, T, n, f, v, x, hw, m, hf, a1, hl, hh, a2⟩ := hfield p i obj h1 h2 h3
    have := stateAt_fun h4 a1
    subst this
    generalize hq : noSign (DynProp.ofTyped f.ty x) = q at a2
    cases a2 with
    | object _ o hc =>
      obtain ⟨w', hw', hwo⟩ := hc
      have hx := noSign_obj hq
      obtain ⟨nm, ty⟩ := f
      have ht := congrArg DynProp.propType hx
      rw [DynProp.propType_ofTyped] at ht
      have ht : ty = .prim .objectHandle := ht
      subst ht
      have hv : x = o := by simpa [DynProp.ofTyped] using hx
      subst hv
      obtain ⟨T', h', m', l'⟩ := hcl.objects T w.h w.o n _ x m hl hf rfl hh
      obtain ⟨p2, w2, hw2, e1, e2, _⟩ := hT.cover m' l'
      have := hT.distinct.objs _ _ _ _ hw' hw2 (by rw [hwo, e1])
      subst this
      rw [hw'] at hw2; injection hw2 with hw2; subst hw2
      exact (hT.objectOf hTs).2 ⟨w', T', hw', e2 ▸ m'⟩

/-- What is restored of a part has its contents. -/
theorem Tables.contents (hT : Tables evs b cs parts W S buf) (hP : Storable evs b cs) (hH : History kind evs b) (hs : SomeOf parts cs) {Ts : List ContractTy}
    (hTs : ∀ T : ContractTy, T ∈ Ts ↔ T ∈ parts.map Prod.fst) {kind' : Kind} {sched : IterOrder (ContractTy × Idx)} {ord : IterOrder (Nat × Idx)}
    {hord : HashOrder} {cs' : List (ContractTy × Idx)} {b' : Baseline} (hr : restore buf kind' Ts sched ord hord = .ok (cs', b')) :
    ∃ φ ψ : Idx → Idx, SameContents b parts b' cs' φ ψ := by
  obtain ⟨hsz, hnull, hids'⟩ := restore_needs hr
  obtain ⟨hR, hun⟩ := restorable_of_ok hr
  obtain ⟨cs2, b2, number, r1, r2, r3, r4, r5, r6, r7, r8⟩ := C62_complete_buffers_restore hR hids' hnull hun hsz kind' sched ord hord
  rw [hr] at r1
  injection r1 with r1
  injection r1 with q1 q2
  subst q1 q2
  have hpfst : ∀ (T : ContractTy) (h1 h2 : Idx), (T, h1) ∈ parts → (T, h2) ∈ parts → h1 = h2 := by
    intro T h1 h2 m1 m2
    obtain ⟨C1, n1, e1, _⟩ := hs.2 T h1 m1
    obtain ⟨C2, n2, e2, _⟩ := hs.2 T h2 m2
    exact ids_inj hP hH n1 n2 (e1.symm.trans e2)
  have hcs'fst : ∀ (C : ContractTy) (h1 h2 : Idx), (C, h1) ∈ cs' → (C, h2) ∈ cs' → h1 = h2 := by
    intro C h1 h2 m1 m2
    obtain ⟨n1, e1⟩ := List.getElem?_of_mem m1
    obtain ⟨n2, e2⟩ := List.getElem?_of_mem m2
    have : n1 = n2 := (List.getElem?_inj (l := Ts.map ContractTy.id)
      (by rw [← r2]; simpa using (List.getElem?_eq_some_iff.1 e1).1) hids').1 (by rw [← r2]; simp [e1, e2])
    subst this
    rw [e1] at e2; injection e2 with e2; injection e2
  have hsndC : ∀ (T T' : ContractTy) (h : Idx), (T, h) ∈ parts → (T', h) ∈ parts → T = T' := by
    intro T T' h m m'
    obtain ⟨n1, e1⟩ := List.getElem?_of_mem m
    obtain ⟨n2, e2⟩ := List.getElem?_of_mem m'
    have := snd_inj hs.1 e1 e2
    subst this
    rw [e1] at e2; injection e2 with e2; injection e2
  have hsnd' : ∀ (T T' : ContractTy) (h : Idx), (T, h) ∈ cs' → (T', h) ∈ cs' → T = T' := by
    intro T T' h m m'
    obtain ⟨n1, e1⟩ := List.getElem?_of_mem m
    obtain ⟨n2, e2⟩ := List.getElem?_of_mem m'
    have := snd_inj r3 e1 e2
    subst this
    rw [e1] at e2; injection e2 with e2; injection e2
  have hψex : ∃ ψ : Idx → Idx, ∀ (C : ContractTy) (h : Idx), (C, h) ∈ parts → (C, ψ h) ∈ cs' := by
    have : ∀ h : Idx, ∃ h' : Idx, ∀ C : ContractTy, (C, h) ∈ parts → (C, h') ∈ cs' := by
      intro h
      by_cases hx : ∃ C, (C, h) ∈ parts
      · obtain ⟨C, hC⟩ := hx
        have : C ∈ cs'.map Prod.fst := by
          rw [r2]; exact (hTs C).2 (List.mem_map.2 ⟨_, hC, rfl⟩)
        obtain ⟨⟨C', h'⟩, m, rfl⟩ := List.mem_map.1 this
        exact ⟨h', fun C2 hC2 => by rw [hsndC _ _ _ hC2 hC]; exact m⟩
      · exact ⟨h, fun C hC => absurd ⟨C, hC⟩ hx⟩
    exact ⟨fun h => (this h).choose, fun C h hC => (this h).choose_spec C hC⟩
  obtain ⟨ψ, hψ⟩ := hψex
  have hcs'back : ∀ (C : ContractTy) (h' : Idx), (C, h') ∈ cs' → ∃ h, (C, h) ∈ parts ∧ ψ h = h' := by
    intro C h' hm
    have : C ∈ parts.map Prod.fst := by
      refine (hTs C).1 ?_
      rw [← r2]; exact List.mem_map.2 ⟨_, hm, rfl⟩
    obtain ⟨⟨C', h⟩, m, rfl⟩ := List.mem_map.1 this
    exact ⟨h, m, hcs'fst _ _ _ (hψ _ _ m) hm⟩
  have hψinj : ∀ (C1 C2 : ContractTy) (h1 h2 : Idx), (C1, h1) ∈ parts → (C2, h2) ∈ parts → ψ h1 = ψ h2 → h1 = h2 := by
    intro C1 C2 h1 h2 m1 m2 e
    have n1 := hψ _ _ m1
    have n2 := hψ _ _ m2
    rw [← e] at n2
    have := hsnd' _ _ _ n1 n2
    subst this
    exact hpfst _ _ _ m1 m2
  -- the objects of the part
  have hφex : ∃ φ : Idx → Idx, ∀ (p : Nat) (w : WObj) (T : ContractTy), W[p]? = some w → (T, w.h) ∈ parts → ∃ ob', b'.object (φ w.o) = .ok ob' ∧
      number (φ w.o) = p := by
    have : ∀ o : Idx, ∃ o' : Idx, ∀ (p : Nat) (w : WObj) (T : ContractTy), W[p]? = some w → (T, w.h) ∈ parts → w.o = o →
        ∃ ob', b'.object o' = .ok ob' ∧ number o' = p := by
      intro o
      by_cases hx : ∃ (p : Nat) (w : WObj) (T : ContractTy), W[p]? = some w ∧ (T, w.h) ∈ parts ∧ w.o = o
      · obtain ⟨p, w, T, hw, m, rfl⟩ := hx
        obtain ⟨o', ob', g1, g2⟩ := r7 p ((hT.objectOf hTs).2 ⟨w, T, hw, m⟩)
        refine ⟨o', fun p' w' T' hw' _ e => ?_⟩
        have := hT.distinct.objs p p' w w' hw hw' e.symm
        subst this
        exact ⟨ob', g1, g2⟩
      · exact ⟨o, fun p w T hw m e => absurd ⟨p, w, T, hw, m, e⟩ hx⟩
    exact ⟨fun o => (this o).choose, fun p w T hw m => (this w.o).choose_spec p w T hw m rfl⟩
  obtain ⟨φ, hφ⟩ := hφex
  have hconNo : ∀ (C : ContractTy) (h' : Idx) (c : Nat), (C, h') ∈ cs' → ContractNo buf C c →
      ∃ h C', (C, h) ∈ parts ∧ cs[c]? = some (C', h) ∧ h' = ψ h := by
    intro C h' c hm hno
    obtain ⟨h, m0, e⟩ := hcs'back C h' hm
    obtain ⟨C', e1, _⟩ := hT.conInv C h c m0 hno
    exact ⟨h, C', m0, e1, e.symm⟩
  have hfull : ∀ (p : Nat) (w : WObj) (T : ContractTy), W[p]? = some w → (T, w.h) ∈ parts → ∀ ob' : ObjectD, b'.object (φ w.o) = .ok ob' →
      ob'.contract = ψ w.h ∧ ob'.states.length = w.C.states.length ∧
      ∀ (n : Nat) (f : Field) (j : Idx), w.C.states[n]? = some f → ob'.states[n]? = some j →
        ∃ v val, StateAt buf (w.start + n) v ∧ b'.state f.ty j = .ok val ∧
          Denotes (fun c h => ∃ C', (C', h) ∈ cs' ∧ ContractNo buf C' c)
            (fun r o' => number o' = r ∧ ∃ ob', b'.object o' = .ok ob') v (DynProp.ofTyped f.ty val) := by
    intro p w T hw hm ob' hob'
    obtain ⟨ob1, q1, q2⟩ := hφ p w T hw hm
    rw [hob'] at q1; injection q1 with q1; subst q1
    obtain ⟨C, k, obj, g1, g2, g3, g4, g5, _, _, g8⟩ := r8 _ _ hob'
    rw [q2] at g3
    obtain ⟨w1, hw1, rfl⟩ := (hT.obj p obj).1 g3
    rw [hw] at hw1; injection hw1 with hw1; subst hw1
    have hwm := List.mem_of_getElem? hw
    obtain ⟨h, C', m0, hk, he⟩ := hconNo C _ k g1 g2
    obtain ⟨⟨c, c1, c2⟩, _⟩ := g4
    have : w.k = k := (hT.number hwm c1).symm.trans c2
    subst this
    have hn := hT.num w hwm
    rw [hn] at hk; injection hk with hk; injection hk with k1 k2
    subst k2
    obtain ⟨C2, e1, e2⟩ := hT.conInv C w.h w.k m0 g2
    rw [hn] at e1; injection e1 with e1; injection e1 with e1 _
    subst e1
    refine ⟨he, by rw [g5, e2], ?_⟩
    intro n f j h1 h2
    exact g8 n (w.start + n) f j (by rw [e2]; exact h1) (((hT.idx p w hw).2 n _).2 ⟨(List.getElem?_eq_some_iff.1 h1).1, rfl⟩) h2
  have hback : ∀ (o' : Idx) (ob' : ObjectD), b'.object o' = .ok ob' → ∃ (w : WObj) (T : ContractTy), W[number o']? = some w ∧ (T, w.h) ∈ parts ∧ o' = φ w.o := by
    intro o' ob' ho'
    obtain ⟨C, k, obj, g1, g2, g3, ⟨⟨c, c1, c2⟩, _⟩, _⟩ := r8 o' ob' ho'
    obtain ⟨h, m0, _⟩ := hcs'back C _ g1
    obtain ⟨w, T, hw, m⟩ := (hT.objectOf hTs).1 ⟨C, (hTs C).2 (List.mem_map.2 ⟨_, m0, rfl⟩), k, obj, c, g2, g3, c1, c2⟩
    obtain ⟨ob2, e1, e2⟩ := hφ _ w T hw m
    exact ⟨w, T, hw, m, r6 _ _ _ _ ho' e1 e2.symm⟩
  refine ⟨φ, ψ, ⟨?_, hψinj, ?_, ?_, ?_, ?_, ?_, ?_⟩⟩
  · intro C h'
    exact ⟨hcs'back C h', fun ⟨h, m, e⟩ => by rw [← e]; exact hψ _ _ m⟩
  · intro h' cd' hcd'
    obtain ⟨C, hC⟩ := r5 h' cd' hcd'
    obtain ⟨h, m, e⟩ := hcs'back C h' hC
    exact ⟨C, h, m, e⟩
  · intro T h m
    obtain ⟨C, m', i1, _⟩ := hs.2 T h m
    obtain ⟨cd, a1, a2⟩ := hP.registered C h m'
    obtain ⟨cd', b1, b2, b3⟩ := r4 T (ψ h) (hψ _ _ m)
    refine ⟨cd, cd', a1, b1, b2.trans (i1.trans a2.symm), fun o' => ?_⟩
    have hob : objectsOf b h = cd.objects := by unfold objectsOf; rw [a1]
    rw [b3]
    constructor
    · rintro ⟨ob', e1, e2⟩
      obtain ⟨w, T', hw, m2, rfl⟩ := hback o' ob' e1
      obtain ⟨f1, _⟩ := hfull _ w T' hw m2 ob' e1
      rw [e2] at f1
      have := hψinj _ _ _ _ m m2 f1
      subst this
      exact ⟨w.o, by rw [← hob]; exact (hT.distinct.listed w (List.mem_of_getElem? hw)).2, rfl⟩
    · rintro ⟨o, ho, rfl⟩
      obtain ⟨p, w, hw, rfl, rfl, _⟩ := hT.cover m (by rw [hob]; exact ho)
      obtain ⟨ob', e1, _⟩ := hφ p w T hw m
      exact ⟨ob', e1, (hfull p w T hw m ob' e1).1⟩
  · intro C1 C2 h1 h2 o1 o2 m1 m2 l1 l2 e
    obtain ⟨p1, w1, hw1, rfl, rfl, _⟩ := hT.cover m1 l1
    obtain ⟨p2, w2, hw2, rfl, rfl, _⟩ := hT.cover m2 l2
    obtain ⟨_, _, e1⟩ := hφ p1 w1 C1 hw1 m1
    obtain ⟨_, _, e2⟩ := hφ p2 w2 C2 hw2 m2
    rw [e, e2] at e1
    subst e1
    rw [hw1] at hw2; injection hw2 with hw2; rw [hw2]
  · intro o' ob' ho'
    obtain ⟨w, T, hw, m, rfl⟩ := hback o' ob' ho'
    exact ⟨T, w.h, w.o, m, (hT.distinct.listed w (List.mem_of_getElem? hw)).2, rfl⟩
  · intro C h o m l
    obtain ⟨p, w, hw, rfl, rfl, _⟩ := hT.cover m l
    obtain ⟨ob', e1, _⟩ := hφ p w C hw m
    exact ⟨ob', e1, (hfull p w C hw m ob' e1).1⟩
  · intro C h o n f m l hf
    obtain ⟨p, w, hw, rfl, rfl, hsts⟩ := hT.cover m l
    rw [← hsts] at hf
    obtain ⟨ob', e1, _⟩ := hφ p w C hw m
    obtain ⟨f1, f2, f3⟩ := hfull p w C hw m ob' e1
    have hnl : n < ob'.states.length := by rw [f2]; exact (List.getElem?_eq_some_iff.1 hf).1
    obtain ⟨v, val, g1, g2, g3⟩ := f3 n f _ hf (List.getElem?_eq_getElem hnl)
    obtain ⟨v', x, q1, q3, q2⟩ := hT.slot p w hw n f hf
    have hvv := stateAt_fun g1 q1
    subst hvv
    refine ⟨x, val, q3, ⟨ob'.states[n], ?_, g2⟩, ?_⟩
    · rw [bindState_of_get (object_ok.1 e1)]
      exact bindIdx_ok.2 ⟨f1.symm, List.getElem?_eq_getElem hnl⟩
    · refine denotes_both q2 g3 ?_ ?_
      · rintro c h h' ⟨C, hc⟩ ⟨C', m', no⟩
        obtain ⟨h2, C2, _, k1, k2⟩ := hconNo C' h' c m' no
        rw [hc] at k1; injection k1 with k1; injection k1 with _ k1
        rw [k2, k1]
      · rintro r o o' ⟨w', hw', rfl⟩ ⟨n1, ob2, n2⟩
        obtain ⟨w2, T2, hw2, _, rfl⟩ := hback o' ob2 n2
        rw [n1, hw'] at hw2; injection hw2 with hw2
        rw [hw2]

/-- What a part must be like if it was restored. -/
theorem part_of_restored (hT : ∀ parts, SomeOf parts cs → Tables evs b cs parts W S buf) (hP : Storable evs b cs)
    (hcon : ∃ tbls, buf.contracts = some tbls ∧ cs.map (fun e => Ser.contractTable e.1) = tbls.map Outcome.ok) {Ts : List ContractTy} {kind' : Kind}
    {sched : IterOrder (ContractTy × Idx)} {ord : IterOrder (Nat × Idx)} {hord : HashOrder} {cs' : List (ContractTy × Idx)} {b' : Baseline}
    (hr : restore buf kind' Ts sched ord hord = .ok (cs', b')) :
    ∃ parts : List (ContractTy × Idx), parts.map Prod.fst = Ts ∧ SomeOf parts cs ∧ Closed b parts ∧ NoChannelObjects b parts := by
  obtain ⟨_, _, hids'⟩ := restore_needs hr
  obtain ⟨hR, hun⟩ := restorable_of_ok hr
  obtain ⟨tbls, t1, t2⟩ := hcon
  -- the saved contract a type describes
  have hfind : ∀ T ∈ Ts, ∃ (C : ContractTy) (h : Idx), (C, h) ∈ cs ∧ T.id = C.id ∧ T.states = C.states := by
    intro T hTm
    obtain ⟨k, cs0, t, a1, a2, a3, _⟩ := hR.described T hTm
    rw [t1] at a1
    injection a1 with a1
    subst a1
    have : (tbls.map Outcome.ok)[k]? = some (Outcome.ok t) := by rw [List.getElem?_map, a2]; rfl
    rw [← t2, List.getElem?_map, Option.map_eq_some_iff] at this
    obtain ⟨⟨C, h⟩, e1, e2⟩ := this
    exact ⟨C, h, List.mem_of_getElem? e1, describes_same a3 (contractTable_describes e2)⟩
  have hch : ∃ g : ContractTy → Idx, ∀ T ∈ Ts, ∃ C, (C, g T) ∈ cs ∧ T.id = C.id ∧ T.states = C.states := by
    have : ∀ T : ContractTy, ∃ h : Idx, T ∈ Ts → ∃ C, (C, h) ∈ cs ∧ T.id = C.id ∧ T.states = C.states := by
      intro T
      by_cases hTm : T ∈ Ts
      · obtain ⟨C, h, e⟩ := hfind T hTm
        exact ⟨h, fun _ => ⟨C, e⟩⟩
      · exact ⟨⟨0, 0⟩, fun h => absurd h hTm⟩
    exact ⟨fun T => (this T).choose, fun T => (this T).choose_spec⟩
  obtain ⟨g, hg⟩ := hch
  have hmem : ∀ (T : ContractTy) (h : Idx), (T, h) ∈ Ts.map (fun T => (T, g T)) ↔ T ∈ Ts ∧ h = g T := by
    intro T h
    simp only [List.mem_map, Prod.mk.injEq]
    exact ⟨fun ⟨T', a, b, c⟩ => by subst b; exact ⟨a, c.symm⟩, fun ⟨a, c⟩ => ⟨T, a, rfl, c.symm⟩⟩
  have hfst : (Ts.map fun T => (T, g T)).map Prod.fst = Ts := by
    rw [List.map_map]
    exact (List.map_congr_left fun _ _ => rfl).trans (List.map_id _)
  have hs : SomeOf (Ts.map fun T => (T, g T)) cs := by
    refine ⟨?_, fun T h m => ?_⟩
    · rw [List.map_map]
      refine nodup_of_getElem? fun n n' x h1 h2 => ?_
      rw [List.getElem?_map, Option.map_eq_some_iff] at h1 h2
      obtain ⟨T, a1, a2⟩ := h1
      obtain ⟨T', b1, b2⟩ := h2
      obtain ⟨C, m1, i1, _⟩ := hg T (List.mem_of_getElem? a1)
      obtain ⟨C', m2, i2, _⟩ := hg T' (List.mem_of_getElem? b1)
      have e : g T = g T' := a2.trans b2.symm
      rw [← e] at m2
      obtain ⟨cd, r1, r2⟩ := hP.registered C (g T) m1
      obtain ⟨cd', r3, r4⟩ := hP.registered C' (g T) m2
      rw [r1] at r3; injection r3 with r3; subst r3
      exact (List.getElem?_inj (l := Ts.map ContractTy.id) (by simpa using (List.getElem?_eq_some_iff.1 a1).1) hids').1
        (by simp [a1, b1, i1, i2, ← r2, ← r4])
    · obtain ⟨hTm, rfl⟩ := (hmem T h).1 m
      exact hg T hTm
  have hT := hT _ hs
  have hTs : ∀ T : ContractTy, T ∈ Ts ↔ T ∈ (Ts.map fun T => (T, g T)).map Prod.fst := by rw [hfst]; exact fun _ => Iff.rfl
  -- a value of an object of the part
  have hval : ∀ (T : ContractTy) (h o : Idx) (n : Nat) (f : Field) (v : f.ty.Carrier), (T, h) ∈ Ts.map (fun T => (T, g T)) → o ∈ objectsOf b h →
      T.states[n]? = some f → Holds b h o n f.ty v → ∃ (p i : Nat) (obj : FbObject) (x : FbVal), ObjectOf buf Ts p ∧ ObjectAt buf p obj ∧
        i ∈ stateIdxs obj ∧ StateAt buf i x ∧
        Denotes (fun c h => ∃ C, cs[c]? = some (C, h)) (fun r o => ∃ w, W[r]? = some w ∧ w.o = o) x (noSign (DynProp.ofTyped f.ty v)) := by
    intro T h o n f v m ho hf hh
    obtain ⟨p, w, hw, rfl, rfl, e⟩ := hT.cover m ho
    rw [← e] at hf
    obtain ⟨x, v', q1, q2, q3⟩ := hT.slot p w hw n f hf
    have := holds_fun hh q2
    subst this
    exact ⟨p, _, w.table, x, (hT.objectOf hTs).2 ⟨w, T, hw, m⟩, (hT.obj p _).2 ⟨w, hw, rfl⟩,
      List.mem_of_getElem? (((hT.idx p w hw).2 n _).2 ⟨(List.getElem?_eq_some_iff.1 hf).1, rfl⟩), q1, q3⟩
  refine ⟨_, hfst, hs, ⟨?_, ?_⟩, ?_⟩
  · intro T h o n f v m ho hf ht hh
    obtain ⟨nm, ty⟩ := f
    have ht : ty = .prim .objectHandle := ht
    subst ht
    obtain ⟨p, i, obj, x, a1, a2, a3, a4, a5⟩ := hval T h o n _ v m ho hf hh
    generalize hq : noSign (DynProp.ofTyped (PropType.prim .objectHandle) v) = q at a5
    have hq' : q = .primitive (.objectHandle v) := hq.symm
    subst hq'
    cases a5 with
    | object r _ hc =>
      obtain ⟨w', hw', rfl⟩ := hc
      obtain ⟨w, T', hw, m'⟩ := (hT.objectOf hTs).1 (hR.objectRefs p i obj r a1 a2 a3 a4)
      rw [hw'] at hw; injection hw with hw; subst hw
      exact ⟨T', w'.h, m', (hT.distinct.listed w' (List.mem_of_getElem? hw')).2⟩
  · intro T h o n f v m ho hf ht hh
    obtain ⟨nm, ty⟩ := f
    have ht : ty = .prim .contractDataHandle := ht
    subst ht
    obtain ⟨p, i, obj, x, a1, a2, a3, a4, a5⟩ := hval T h o n _ v m ho hf hh
    generalize hq : noSign (DynProp.ofTyped (PropType.prim .contractDataHandle) v) = q at a5
    have hq' : q = .primitive (.contractDataHandle v) := hq.symm
    subst hq'
    cases a5 with
    | contract c _ hc =>
      obtain ⟨C, hC⟩ := hc
      obtain ⟨T', hTm, hno⟩ := hR.contractRefs p i obj c a1 a2 a3 a4
      obtain ⟨C', e1, _⟩ := hT.conInv T' (g T') _ ((hmem _ _).2 ⟨hTm, rfl⟩) hno
      rw [hC] at e1; injection e1 with e1; injection e1 with _ e1
      exact ⟨T', (hmem _ _).2 ⟨hTm, e1⟩⟩
  · intro T h m hne
    cases ho : objectsOf b h with
    | nil => rfl
    | cons o l =>
      obtain ⟨p, w, hw, _, rfl, _⟩ := hT.cover m (o := o) (by rw [ho]; exact List.mem_cons_self)
      obtain ⟨k, C, e1, e2, _⟩ := hT.con T w.h m
      have hwm := List.mem_of_getElem? hw
      have := snd_inj hT.nodup e1 (hT.num w hwm)
      subst this
      exact absurd ⟨T, List.mem_singleton.2 rfl, _, w.table, BitVec.ofNat 16 w.k, e2, (hT.obj p _).2 ⟨w, hw, rfl⟩, rfl, hT.number hwm rfl⟩
        (hun T ((hmem _ _).1 m).1 hne p)

end

/-- C133 for the contracts in the order in which they were saved. -/
theorem read_in_part {kind : Kind} {evs : List Event} {b : Baseline} {cs : List (ContractTy × Idx)} (hS : Savable kind evs b cs) (c : Cycle)
    (hc : c.calls.map (fun e => (e.1, e.2.1)) = cs) {bytes : Bytes} (h : c.save b = .ok bytes) (hl : bytes.length < 2 ^ 31) (d : Cycle) :
    ((d.load bytes).isOk = true ↔
      ∃ parts : List (ContractTy × Idx), parts.map Prod.fst = d.types ∧ SomeOf parts cs ∧ Closed b parts ∧ NoChannelObjects b parts) ∧
    ((d.load bytes).isOk = false → (d.load bytes).isErr = true) ∧
    ∀ (cs' : List (ContractTy × Idx)) (b' : Baseline), d.load bytes = .ok (cs', b') →
      ∃ (parts : List (ContractTy × Idx)) (φ ψ : Idx → Idx), parts.map Prod.fst = d.types ∧ SomeOf parts cs ∧ Closed b parts ∧
        SameContents b parts b' cs' φ ψ := by
  have hP := hS.serializable.storable
  have hsz := hS.size
  have hst : stateCount b cs ≤ 2 ^ 32 := by unfold savedTables at hsz; omega
  have hob : objectCount b cs ≤ 2 ^ 32 := by unfold savedTables at hsz; omega
  obtain ⟨s, out, h1, h2, h3⟩ := saved_file h hl
  obtain ⟨W, S, hI⟩ := serializeAll_ok (serInv_new b) h1
  rw [List.nil_append, hc] at hI
  obtain ⟨out', buf, hf, hd, hO⟩ := finish_output hP hS.history hS.different hob hI
    (resolved_of_closed hP hS.history hS.different hS.closed hI) c.ordC c.ordO
  rw [h2] at hf; injection hf with hf; subst hf
  rw [hd] at h3
  have hload : d.load bytes = restore buf d.kind d.types d.sched d.ord d.hord := restoreBytes_some h3 ..
  have hT : ∀ parts, SomeOf parts cs → Tables evs b cs parts W S buf := fun parts hs => tables_of hP hS.history hS.different hst hI hO hs
  refine ⟨⟨fun hok => ?_, ?_⟩, fun hno => ?_, fun cs' b' hx => ?_⟩
  · cases hx : d.load bytes with
    | err m => rw [hx] at hok; cases hok
    | panic m => rw [hx] at hok; cases hok
    | ok x =>
      rw [hload] at hx
      exact part_of_restored hT hP hO.contracts hx
  · rintro ⟨parts, p1, p2, p3, p4⟩
    have hTs : ∀ T : ContractTy, T ∈ d.types ↔ T ∈ parts.map Prod.fst := fun T => by rw [p1]
    have hx := hT parts p2
    have hids : (d.types.map ContractTy.id).Nodup := by
      rw [← p1, List.map_map]
      refine nodup_of_getElem? fun n n' x h1 h2 => ?_
      rw [List.getElem?_map, Option.map_eq_some_iff] at h1 h2
      obtain ⟨⟨T, k⟩, a1, a2⟩ := h1
      obtain ⟨⟨T', k'⟩, b1, b2⟩ := h2
      obtain ⟨C, m1, i1, _⟩ := p2.2 T k (List.mem_of_getElem? a1)
      obtain ⟨C', m2, i2, _⟩ := p2.2 T' k' (List.mem_of_getElem? b1)
      have := ids_inj hP hS.history m1 m2 (i1.symm.trans ((a2.trans b2.symm).trans i2))
      subst this
      exact snd_inj p2.1 a1 b1
    have hnull : ∀ T ∈ d.types, T.id ≠ ⟨"teleportal.serialize.NullContract", (0, 0, 0)⟩ := by
      intro T hTm
      obtain ⟨⟨T', k⟩, m, rfl⟩ := List.mem_map.1 ((hTs T).1 hTm)
      obtain ⟨C, m', i1, _⟩ := p2.2 _ k m
      rw [i1]
      exact hS.notNull _ m'
    have hun : ChannelsUnused buf d.types := by
      intro T hTm hne p hp
      obtain ⟨⟨T', k⟩, m, rfl⟩ := List.mem_map.1 ((hTs T).1 hTm)
      have hx1 := hT [(T', k)] ⟨by simp, fun T h hm => p2.2 T h (by rw [List.mem_singleton.1 hm]; exact m)⟩
      obtain ⟨w, T2, hw, m2⟩ := (hx1.objectOf (Ts := [T']) (by simp)).1 hp
      have e := List.mem_singleton.1 m2
      injection e with e1 e2
      have hlst := (hx1.distinct.listed w (List.mem_of_getElem? hw)).2
      rw [e2, p4 T' k m hne] at hlst
      cases hlst
    have hR := hx.restorable p3 (let ⟨sts, e, _⟩ := hO.states; ⟨sts, e⟩) hTs
    obtain ⟨cs', b', e⟩ := (C62_restore_iff buf d.kind d.types d.sched d.ord d.hord).2
      ⟨by rw [Output.tables hI hO]; exact hsz, hR, hids, hnull, hun⟩
    rw [hload, e]
    rfl
  · cases hx : d.load bytes with
    | err m => rfl
    | ok x => rw [hx] at hno; cases hno
    | panic m =>
      have := C132_never_panics h hl ⟨[], (List.append_nil _).symm⟩ d
      rw [hx] at this
      cases this
  · rw [hload] at hx
    obtain ⟨parts, p1, p2, p3, _⟩ := part_of_restored hT hP hO.contracts hx
    obtain ⟨φ, ψ, e⟩ := (hT parts p2).contents hP hS.history p2 (fun T => by rw [p1]) hx
    exact ⟨parts, φ, ψ, p1, p2, p3, e⟩

/-- **C133.** Take the file of any contracts that can be saved, and any reader.  Reading succeeds exactly if the types asked for are those of some of
the saved contracts (same ids and states), these contracts refer to nothing else, and no type with channels is given for one with objects;
otherwise it is an error.  What is read are exactly those contracts with their contents. -/
theorem C133_read_in_part {kind : Kind} {evs : List Event} {b : Baseline} {cs : List (ContractTy × Idx)} (hS : Savable kind evs b cs) (c : Cycle)
    (hc : c.Fits cs) {bytes : Bytes} (h : c.save b = .ok bytes) (hl : bytes.length < 2 ^ 31) (d : Cycle) :
    ((d.load bytes).isOk = true ↔
      ∃ parts : List (ContractTy × Idx), parts.map Prod.fst = d.types ∧ SomeOf parts cs ∧ Closed b parts ∧ NoChannelObjects b parts) ∧
    ((d.load bytes).isOk = false → (d.load bytes).isErr = true) ∧
    ∀ (cs' : List (ContractTy × Idx)) (b' : Baseline), d.load bytes = .ok (cs', b') →
      ∃ (parts : List (ContractTy × Idx)) (φ ψ : Idx → Idx), parts.map Prod.fst = d.types ∧ SomeOf parts cs ∧ Closed b parts ∧
        SameContents b parts b' cs' φ ψ := by
  have hsome : ∀ parts : List (ContractTy × Idx), SomeOf parts (c.calls.map fun e => (e.1, e.2.1)) ↔ SomeOf parts cs := by
    intro parts
    unfold SomeOf
    simp only [hc.1.mem_iff]
  have := read_in_part (savable_perm hS hc.1) c rfl h hl d
  simp only [hsome] at this
  exact this

/-! The file of the graph holds the nodes, which refer to each other, and the tag, which refers to the contract of the nodes.  The nodes can be read on
their own; the tag cannot; asking for no types succeeds. -/

example : (match (demoCycle graphCs).save graphB with
    | .ok bytes => ((asking [nodeC]).load bytes).isOk && ((asking [tagC]).load bytes).isErr && ((asking []).load bytes).isOk &&
        ((asking [tagC, nodeC]).load bytes).isOk
    | _ => false) = true := by decide +kernel

end Verif.Props
