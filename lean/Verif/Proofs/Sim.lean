import Verif.Proofs.Matched
import Verif.Proofs.BaselineApi
import Verif.Proofs.Types
import Verif.Spec.Program
/-! # Baselines that no program can tell apart

A correspondence of handles (`Names`) under which two baselines have the same contents (`Paired`) is kept by every call, and what is
seen is the same. -/
namespace Verif
open Arena Store Baseline Spec

/-- A correspondence of handles.  Contract handles come with the type of the contract. -/
structure Names where
  con : ContractTy → Idx → Idx → Prop
  obj : Idx → Idx → Prop
  st : PropType → Idx → Idx → Prop
  ch : PropType → Idx → Idx → Prop

/-- `N'` has all pairs of `N`. -/
structure Names.Le (N N' : Names) : Prop where
  con : ∀ (C : ContractTy) (i j : Idx), N.con C i j → N'.con C i j
  obj : ∀ i j : Idx, N.obj i j → N'.obj i j
  st : ∀ (t : PropType) (i j : Idx), N.st t i j → N'.st t i j
  ch : ∀ (t : PropType) (i j : Idx), N.ch t i j → N'.ch t i j

theorem Names.Le.refl (N : Names) : N.Le N := ⟨fun _ _ _ h => h, fun _ _ h => h, fun _ _ _ h => h, fun _ _ _ h => h⟩

theorem Names.Le.trans {N N1 N2 : Names} (h : N.Le N1) (g : N1.Le N2) : N.Le N2 :=
  ⟨fun C i j x => g.con C i j (h.con C i j x), fun i j x => g.obj i j (h.obj i j x), fun t i j x => g.st t i j (h.st t i j x), fun t i j x => g.ch t i j (h.ch t i j x)⟩

def RelPrim (N : Names) : (p : PrimType) → p.Carrier → p.Carrier → Prop
  | .objectHandle, o, o' => N.obj o o'
  | .contractDataHandle, h, h' => ∃ C, N.con C h h'
  | .u8, v, w => v = w | .u16, v, w => v = w | .u32, v, w => v = w | .u64, v, w => v = w
  | .i8, v, w => v = w | .i16, v, w => v = w | .i32, v, w => v = w | .i64, v, w => v = w
  | .bool, v, w => v = w | .f32, v, w => v = w | .f64, v, w => v = w | .string, v, w => v = w

def RelVal (N : Names) : (t : PropType) → t.Carrier → t.Carrier → Prop
  | .prim p, v, w => RelPrim N p v w
  | .vec p, v, w => List.Forall₂ (RelPrim N p) v w

def RelChan (N : Names) (t : PropType) (c d : t.Chan) : Prop :=
  List.Forall₂ (fun (k l : Keyframe t.Carrier) => RelVal N t k.value l.value ∧ k.time = l.time) c d

def RelData (N : Names) (cd cd' : ContractData) : Prop :=
  cd.id = cd'.id ∧ cd.objects.Nodup ∧ cd'.objects.Nodup ∧ (∀ o ∈ cd.objects, ∃ o' ∈ cd'.objects, N.obj o o') ∧
    ∀ o' ∈ cd'.objects, ∃ o ∈ cd.objects, N.obj o o'

def RelObj (N : Names) (ob ob' : ObjectD) : Prop :=
  ob.warp = ob'.warp ∧ ∃ C, N.con C ob.contract ob'.contract ∧ FieldsMatched N.st C.stateTypes ob.states ob'.states ∧
    FieldsMatched N.ch C.channelTypes ob.channels ob'.channels

/-- What of a baseline is compared: the contracts with these ids, and perhaps the number of objects. -/
structure Scope where
  own : ContractId → Prop
  all : Prop

/-- Everything. -/
def Scope.whole : Scope := ⟨fun _ => True, True⟩

/-- The two baselines have corresponding contents, as far as `S` goes. -/
structure PairedOn (S : Scope) (N : Names) (b b' : Baseline) : Prop where
  kind : b.kind = b'.kind
  cons : Matched (fun h h' => ∃ C, N.con C h h') (RelData N) b.contracts b'.contracts
  ty : ∀ (C D : ContractTy) (h h' h'' : Idx), N.con C h h' → N.con D h h'' → C = D
  conL : ∀ (h : Idx) (cd : ContractData), b.contracts.get h = some cd → S.own cd.id → ∃ C h', N.con C h h'
  conR : ∀ (h' : Idx) (cd : ContractData), b'.contracts.get h' = some cd → S.own cd.id → ∃ C h, N.con C h h'
  objs : Matched N.obj (RelObj N) b.objects b'.objects
  objL : ∀ (o : Idx) (ob : ObjectD), b.objects.get o = some ob → S.all → ∃ o', N.obj o o'
  objR : ∀ (o' : Idx) (ob : ObjectD), b'.objects.get o' = some ob → S.all → ∃ o, N.obj o o'
  sts : StoreMatched N.st (RelVal N) b.states b'.states
  chs : StoreMatched N.ch (RelChan N) b.channels b'.channels

/-- The two baselines have corresponding contents. -/
abbrev Paired (N : Names) (b b' : Baseline) : Prop := PairedOn .whole N b b'

def RelHeld (N : Names) : Held → Held → Prop
  | .inst C h, .inst D h' => C = D ∧ N.con C h h'
  | .con h, .con h' => ∃ C, N.con C h h'
  | .obj o, .obj o' => N.obj o o'
  | .state t i, .state t' j => t = t' ∧ N.st t i j
  | .channel t i, .channel t' j => t = t' ∧ N.ch t i j
  | _, _ => False

abbrev RelEnv (N : Names) : Env → Env → Prop := List.Forall₂ (RelHeld N)

/-! ## More names -/

theorem RelPrim.mono {N N' : Names} (h : N.Le N') (p : PrimType) {v w : p.Carrier} (hr : RelPrim N p v w) : RelPrim N' p v w := by
  cases p <;> first | exact hr | exact h.obj _ _ hr | exact hr.imp fun C x => h.con C _ _ x

theorem RelVal.mono {N N' : Names} (h : N.Le N') (t : PropType) {v w : t.Carrier} (hr : RelVal N t v w) : RelVal N' t v w := by
  cases t with
  | prim p => exact RelPrim.mono h p hr
  | vec p => exact List.Forall₂.imp (fun _ _ x => RelPrim.mono h p x) hr

theorem RelChan.mono {N N' : Names} (h : N.Le N') (t : PropType) {v w : t.Chan} (hr : RelChan N t v w) : RelChan N' t v w :=
  List.Forall₂.imp (fun _ _ x => ⟨RelVal.mono h t x.1, x.2⟩) hr

theorem RelData.mono {N N' : Names} (h : N.Le N') {v w : ContractData} (hr : RelData N v w) : RelData N' v w :=
  ⟨hr.1, hr.2.1, hr.2.2.1, fun o ho => (hr.2.2.2.1 o ho).imp fun o' x => ⟨x.1, h.obj _ _ x.2⟩,
    fun o ho => (hr.2.2.2.2 o ho).imp fun o' x => ⟨x.1, h.obj _ _ x.2⟩⟩

theorem RelObj.mono {N N' : Names} (h : N.Le N') {v w : ObjectD} (hr : RelObj N v w) : RelObj N' v w :=
  ⟨hr.1, hr.2.imp fun C x => ⟨h.con C _ _ x.1, x.2.1.mono h.st, x.2.2.mono h.ch⟩⟩

theorem RelHeld.mono {N N' : Names} (h : N.Le N') {v w : Held} (hr : RelHeld N v w) : RelHeld N' v w := by
  cases v <;> cases w <;> first | exact hr.elim | exact ⟨hr.1, h.con _ _ _ hr.2⟩ | exact hr.imp fun C x => h.con C _ _ x | exact h.obj _ _ hr | exact ⟨hr.1, h.st _ _ _ hr.2⟩ | exact ⟨hr.1, h.ch _ _ _ hr.2⟩

theorem RelEnv.mono {N N' : Names} (h : N.Le N') {e e' : Env} (hr : RelEnv N e e') : RelEnv N' e e' :=
  List.Forall₂.imp (fun _ _ x => RelHeld.mono h x) hr

/-! ## Variables and values -/

theorem RelEnv.get {N : Names} {e e' : Env} (h : RelEnv N e e') (k : Nat) : Option.Rel (RelHeld N) e[k]? e'[k]? := by
  induction h generalizing k with
  | nil => exact .none
  | cons h1 _ ih => cases k with
    | zero => exact .some h1
    | succ k => exact ih k

theorem RelEnv.push {N : Names} {e e' : Env} (h : RelEnv N e e') {x y : Held} (hx : RelHeld N x y) : RelEnv N (e ++ [x]) (e' ++ [y]) := by
  induction h with
  | nil => exact .cons hx .nil
  | cons h1 _ ih => exact .cons h1 ih

theorem evalPrim_rel {N : Names} {e e' : Env} (h : RelEnv N e e') (p : PrimType) (s : PrimSym p) :
    Option.Rel (RelPrim N p) (evalPrim e p s) (evalPrim e' p s) := by
  cases p
  case objectHandle =>
    have := h.get s
    simp only [evalPrim]
    cases h1 : e[s]? with
    | none => rw [h1] at this; cases h2 : e'[s]? with
      | none => exact .none
      | some y => rw [h2] at this; cases this
    | some x => rw [h1] at this; cases h2 : e'[s]? with
      | none => rw [h2] at this; cases this
      | some y =>
        rw [h2] at this; cases this with
        | some hr => cases x <;> cases y <;> first | exact hr.elim | exact .none | exact .some hr
  case contractDataHandle =>
    have := h.get s
    simp only [evalPrim]
    cases h1 : e[s]? with
    | none => rw [h1] at this; cases h2 : e'[s]? with
      | none => exact .none
      | some y => rw [h2] at this; cases this
    | some x => rw [h1] at this; cases h2 : e'[s]? with
      | none => rw [h2] at this; cases this
      | some y =>
        rw [h2] at this; cases this with
        | some hr => cases x <;> cases y <;> first | exact hr.elim | exact .none | exact .some hr
  all_goals exact .some rfl

theorem evalList_rel {α β γ : Type} {R : β → γ → Prop} {f : α → Option β} {g : α → Option γ}
    (h : ∀ x : α, Option.Rel R (f x) (g x)) (l : List α) : Option.Rel (List.Forall₂ R) (evalList f l) (evalList g l) := by
  induction l with
  | nil => exact .some .nil
  | cons x xs ih =>
    have h1 := h x
    simp only [evalList]
    revert h1 ih
    generalize f x = a; generalize g x = b; generalize evalList f xs = as; generalize evalList g xs = bs
    intro ih h1
    cases h1 with
    | none => cases ih <;> exact .none
    | some h1 => cases ih with
      | none => exact .none
      | some ih => exact .some (.cons h1 ih)

theorem evalVal_rel {N : Names} {e e' : Env} (h : RelEnv N e e') (t : PropType) (s : Sym t) :
    Option.Rel (RelVal N t) (evalVal e t s) (evalVal e' t s) := by
  cases t with
  | prim p => exact evalPrim_rel h p s
  | vec p => exact evalList_rel (evalPrim_rel h p) s

theorem optRel_map {α β γ δ : Type} {R : α → β → Prop} {S : γ → δ → Prop} {f : α → γ} {g : β → δ} (h : ∀ (x : α) (y : β), R x y → S (f x) (g y))
    {a : Option α} {b : Option β} (hr : Option.Rel R a b) : Option.Rel S (a.map f) (b.map g) := by
  cases hr with
  | none => exact .none
  | some hr => exact .some (h _ _ hr)

theorem evalChan_rel {N : Names} {e e' : Env} (h : RelEnv N e e') (t : PropType) (s : ChanSym t) :
    Option.Rel (RelChan N t) (evalChan e t s) (evalChan e' t s) :=
  evalList_rel (R := fun (k l : Keyframe t.Carrier) => RelVal N t k.value l.value ∧ k.time = l.time)
    (f := evalKey e t) (g := evalKey e' t) (fun k => optRel_map (fun _ _ x => ⟨x, rfl⟩) (evalVal_rel h t k.1)) s

/-- Dynamic values that correspond. -/
def RelDyn (N : Names) (d d' : DynProp) : Prop := ∃ (t : PropType) (v w : t.Carrier), d = .ofTyped t v ∧ d' = .ofTyped t w ∧ RelVal N t v w

def RelDynChan (N : Names) (d d' : DynChannel) : Prop := ∃ (t : PropType) (v w : t.Chan), d = ⟨t, v⟩ ∧ d' = ⟨t, w⟩ ∧ RelChan N t v w

theorem evalProps_rel {N : Names} {e e' : Env} (h : RelEnv N e e') (l : List ((t : PropType) × Sym t)) :
    Option.Rel (List.Forall₂ (RelDyn N)) (evalList (evalProp e) l) (evalList (evalProp e') l) :=
  evalList_rel (fun s => optRel_map (fun _ _ x => ⟨s.1, _, _, rfl, rfl, x⟩) (evalVal_rel h s.1 s.2)) l

theorem evalChans_rel {N : Names} {e e' : Env} (h : RelEnv N e e') (l : List ((t : PropType) × ChanSym t)) :
    Option.Rel (List.Forall₂ (RelDynChan N)) (evalList (evalDynChan e) l) (evalList (evalDynChan e') l) :=
  evalList_rel (fun s => optRel_map (fun _ _ x => ⟨s.1, _, _, rfl, rfl, x⟩) (evalChan_rel h s.1 s.2)) l

theorem receivePrim_rel {N : Names} {e e' : Env} (h : RelEnv N e e') (p : PrimType) {v w : p.Carrier} (hr : RelPrim N p v w) :
    (receivePrim p v e).1 = (receivePrim p w e').1 ∧ RelEnv N (receivePrim p v e).2 (receivePrim p w e').2 := by
  have hl := h.length_eq
  cases p
  case objectHandle => exact ⟨hl, h.push hr⟩
  case contractDataHandle => exact ⟨hl, h.push hr⟩
  all_goals (cases hr; exact ⟨rfl, h⟩)

theorem receiveList_rel {α β : Type} {N : Names} {R : α → α → Prop} {f : α → Env → β × Env}
    (hf : ∀ (x y : α) (e e' : Env), RelEnv N e e' → R x y → (f x e).1 = (f y e').1 ∧ RelEnv N (f x e).2 (f y e').2)
    {l l' : List α} (hr : List.Forall₂ R l l') : ∀ {e e' : Env}, RelEnv N e e' →
    (receiveList f l e).1 = (receiveList f l' e').1 ∧ RelEnv N (receiveList f l e).2 (receiveList f l' e').2 := by
  induction hr with
  | nil => intro e e' h; exact ⟨rfl, h⟩
  | cons hx _ ih =>
    intro e e' h
    obtain ⟨h1, h2⟩ := hf _ _ e e' h hx
    obtain ⟨h3, h4⟩ := ih h2
    exact ⟨by simp only [receiveList, h1, h3], h4⟩

theorem receiveVal_rel {N : Names} (t : PropType) (e e' : Env) (h : RelEnv N e e') {v w : t.Carrier} (hr : RelVal N t v w) :
    (receiveVal t v e).1 = (receiveVal t w e').1 ∧ RelEnv N (receiveVal t v e).2 (receiveVal t w e').2 := by
  cases t with
  | prim p => exact receivePrim_rel h p hr
  | vec p => exact receiveList_rel (R := RelPrim N p) (f := receivePrim p) (fun x y e e' h hr => receivePrim_rel h p hr) hr h

theorem receiveChan_rel {N : Names} (t : PropType) (e e' : Env) (h : RelEnv N e e') {v w : t.Chan} (hr : RelChan N t v w) :
    (receiveChan t v e).1 = (receiveChan t w e').1 ∧ RelEnv N (receiveChan t v e).2 (receiveChan t w e').2 := by
  refine receiveList_rel (fun x y e e' h hr => ?_) hr h
  obtain ⟨h1, h2⟩ := receiveVal_rel t e e' h hr.1
  exact ⟨Prod.ext h1 hr.2, h2⟩

end Verif
