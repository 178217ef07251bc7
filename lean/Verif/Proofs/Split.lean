import Verif.Proofs.Apart
/-! # A correspondence of baselines, seen from the other side -/
namespace Verif
open Arena Store Baseline Spec

/-- The same pairs, the other way round. -/
def Names.flip (N : Names) : Names := ⟨fun C i j => N.con C j i, fun i j => N.obj j i, fun t i j => N.st t j i, fun t i j => N.ch t j i⟩

theorem Matched.flip {α β : Type} {r : Idx → Idx → Prop} {R : α → β → Prop} {a : Arena α} {b : Arena β} (h : Matched r R a b) {R' : β → α → Prop}
    (hR : ∀ (v : α) (w : β), R v w → R' w v) : Matched (fun i j => r j i) R' b a :=
  ⟨h.rinv, h.linv, fun i j j' h1 h2 => h.inj j j' i h1 h2, fun i i' j h1 h2 => h.det j i i' h1 h2,
    fun i j hr => (h.pair j i hr).imp (fun ⟨v, w, h1, h2, h3⟩ => ⟨w, v, h2, h1, hR v w h3⟩) fun ⟨h1, h2⟩ => ⟨h2, h1⟩⟩

theorem RelPrim.flip {N : Names} (p : PrimType) {v w : p.Carrier} (h : RelPrim N p v w) : RelPrim N.flip p w v := by
  cases p <;> first | exact Eq.symm h | exact h

theorem forall2_flip {α β : Type} {R : α → β → Prop} {S : β → α → Prop} (h : ∀ (x : α) (y : β), R x y → S y x) {l : List α} {l' : List β}
    (hl : List.Forall₂ R l l') : List.Forall₂ S l' l := by
  induction hl with
  | nil => exact .nil
  | cons h1 _ ih => exact .cons (h _ _ h1) ih

theorem RelVal.flip {N : Names} (t : PropType) {v w : t.Carrier} (h : RelVal N t v w) : RelVal N.flip t w v := by
  cases t with
  | prim p => exact RelPrim.flip p h
  | vec p => exact forall2_flip (fun _ _ x => RelPrim.flip p x) h

theorem RelChan.flip {N : Names} (t : PropType) {c d : t.Chan} (h : RelChan N t c d) : RelChan N.flip t d c :=
  forall2_flip (fun _ _ x => ⟨RelVal.flip t x.1, x.2.symm⟩) h

theorem RelData.flip {N : Names} {c d : ContractData} (h : RelData N c d) : RelData N.flip d c :=
  ⟨h.1.symm, h.2.2.1, h.2.1, h.2.2.2.2, h.2.2.2.1⟩

theorem FieldsMatched.flip {r : PropType → Idx → Idx → Prop} {ts : List PropType} {is js : List Idx} (h : FieldsMatched r ts is js) :
    FieldsMatched (fun t i j => r t j i) ts js is :=
  ⟨h.1.symm, fun n i j hi hj => h.2 n j i hj hi⟩

theorem RelObj.flip {N : Names} {ob ob' : ObjectD} (h : RelObj N ob ob') : RelObj N.flip ob' ob :=
  ⟨h.1.symm, h.2.imp fun _ x => ⟨x.1, x.2.1.flip, x.2.2.flip⟩⟩

theorem PairedOn.flip {S : Scope} {N : Names} {b b' : Baseline} (h : PairedOn S N b b') : PairedOn S N.flip b' b :=
  ⟨h.kind.symm, h.cons.flip fun _ _ => RelData.flip,
    fun C D i j j' h1 h2 => h.ty C D j i i h1 (h.cons.inj j j' i ⟨C, h1⟩ ⟨D, h2⟩ ▸ h2), h.conR, h.conL,
    h.objs.flip fun _ _ => RelObj.flip, h.objR, h.objL, fun t => (h.sts t).flip fun _ _ => RelVal.flip t, fun t => (h.chs t).flip fun _ _ => RelChan.flip t⟩

theorem RelHeld.flip {N : Names} {x y : Held} (h : RelHeld N x y) : RelHeld N.flip y x := by
  cases x <;> cases y <;> first | exact h.elim | exact ⟨h.1.symm, h.1 ▸ h.2⟩ | exact h

theorem RelEnv.flip {N : Names} {e e' : Env} (h : RelEnv N e e') : RelEnv N.flip e' e := forall2_flip (fun _ _ => RelHeld.flip) h

/-- Fewer contracts to compare. -/
theorem PairedOn.restrict {S : Scope} {N : Names} {b b' : Baseline} (h : PairedOn S N b b') {own : ContractId → Prop} (ho : ∀ id : ContractId, own id → S.own id) :
    PairedOn ⟨own, False⟩ N b b' :=
  ⟨h.kind, h.cons, h.ty, fun i cd g x => h.conL i cd g (ho _ x), fun i cd g x => h.conR i cd g (ho _ x), h.objs, fun _ _ _ z => z.elim, fun _ _ _ z => z.elim, h.sts, h.chs⟩

end Verif
