import Verif.Model.BuildScript
/-!
# Proofs about the build script

Three abstract interpreters, each sound for every disk, that are then run on the script for all options.
-/
namespace Verif.Build

theorem exec_append (src : Nat) (d : Disk) (a b : List (Cmd × Fate)) :
    exec src d (a ++ b) = if (exec src d a).2 = true then exec src (exec src d a).1 b else exec src d a := by
  induction a generalizing d with
  | nil => simp [exec]
  | cons c a ih =>
    obtain ⟨c, w⟩ := c
    rw [List.cons_append]
    rcases h : c.exec src w d with ⟨d', r⟩
    have hx : ∀ l : List (Cmd × Fate), exec src d ((c, w) :: l) = if r = true then exec src d' l else (d', false) := by
      intro l
      simp only [exec, h]
      cases r <;> rfl
    rw [hx, hx]
    cases r with
    | true => exact ih d'
    | false => simp

/-- What one command did: nothing, or its effect; and it goes on only after its effect, or as a skipped placeholder. -/
theorem exec_cases (src : Nat) (w : Fate) (d : Disk) (c : Cmd) :
    ((c.exec src w d).1 = d ∨ c.effect src d = some (c.exec src w d).1) ∧
    ((c.exec src w d).2 = true → c.effect src d = some (c.exec src w d).1 ∨
      ((c.exec src w d).1 = d ∧ w = .dir ∧ ∃ f, c = .place f)) := by
  unfold Cmd.exec
  cases h : c.effect src d with
  | none => simp
  | some d' =>
    cases w with
    | ok => simp
    | before => simp
    | after => simp
    | dir => cases c <;> simp

/-! ## The project file -/

/-- The one project file there is has the name `p`. -/
def Named (d : Disk) (p : Proj) : Prop := ∀ q : Proj, (d (.proj q)).isSome = true ↔ q = p

theorem Named.get {d : Disk} {p : Proj} (h : Named d p) : ∃ c, d (.proj p) = some c :=
  Option.isSome_iff_exists.1 ((h p).2 rfl)

theorem Named.none {d : Disk} {p q : Proj} (h : Named d p) (hq : q ≠ p) : d (.proj q) = none := by
  cases hd : d (.proj q) with
  | none => rfl
  | some c => exact absurd ((h q).1 (by rw [hd]; rfl)) hq

theorem Named.fun {d : Disk} {p q : Proj} (h : Named d p) (h' : Named d q) : p = q := (h' p).1 ((h p).2 rfl)

theorem named_projects {d : Disk} {p : Proj} (h : Named d p) : projects d = 1 := by
  have e : ∀ q, (d (.proj q)).isSome = decide (q = p) := fun q => by
    rw [Bool.eq_iff_iff, decide_eq_true_iff]; exact h q
  unfold projects
  simp only [List.countP_cons, List.countP_nil, e]
  cases p <;> rfl

def File.isProj : File → Bool
  | .proj _ => true
  | _ => false

/-- The command leaves project files alone. -/
def Cmd.plain : Cmd → Bool
  | .make fs => fs.all fun f => !f.isProj
  | .tool => true
  | .dotnet => true
  | .rsync _ b => !b.isProj
  | .touch f => !f.isProj
  | .place f => !f.isProj
  | .mv _ _ => false

theorem ne_of_isProj {f : File} (h : (!f.isProj) = true) (p : Proj) : File.proj p ≠ f := by
  rintro rfl; simp [File.isProj] at h

theorem plain_effect {src : Nat} {d d' : Disk} {c : Cmd} (hp : c.plain = true) (h : c.effect src d = some d') (p : Proj) :
    d' (.proj p) = d (.proj p) := by
  cases c with
  | make fs =>
    simp only [Cmd.effect, Option.some.injEq] at h; subst h
    simp only [Cmd.plain, List.all_eq_true] at hp
    have : File.proj p ∉ fs := fun hm => ne_of_isProj (hp _ hm) p rfl
    simp [this]
  | tool => simp only [Cmd.effect, Option.some.injEq] at h; subst h; rfl
  | dotnet =>
    simp only [Cmd.effect] at h
    split at h
    · injection h with h; subst h; rfl
    · cases h
  | rsync a b =>
    simp only [Cmd.effect, Option.map_eq_some_iff] at h
    obtain ⟨c, _, rfl⟩ := h
    simp [Disk.set, ne_of_isProj hp p]
  | touch f =>
    simp only [Cmd.effect, Option.some.injEq] at h; subst h
    split
    · simp [Disk.set, ne_of_isProj hp p]
    · rfl
  | place f =>
    simp only [Cmd.effect, Option.some.injEq] at h; subst h
    split
    · simp [Disk.set, ne_of_isProj hp p]
    · rfl
  | mv a b => cases hp

theorem plain_exec {src : Nat} {w : Fate} {d : Disk} {c : Cmd} (hp : c.plain = true) (p : Proj) :
    (c.exec src w d).1 (.proj p) = d (.proj p) := by
  rcases (exec_cases src w d c).1 with h | h
  · rw [h]
  · exact plain_effect hp h p

theorem plain_run {src : Nat} {d : Disk} {l : List (Cmd × Fate)} (hp : ∀ e ∈ l, e.1.plain = true) (p : Proj) :
    (exec src d l).1 (.proj p) = d (.proj p) := by
  induction l generalizing d with
  | nil => rfl
  | cons e l ih =>
    obtain ⟨c, w⟩ := e
    have h1 := plain_exec (src := src) (w := w) (d := d) (hp (c, w) (by simp)) p
    unfold exec
    rcases hx : c.exec src w d with ⟨d', r⟩
    rw [hx] at h1
    cases r with
    | true => exact (ih fun e he => hp e (by simp [he])).trans h1
    | false => exact h1

/-- The command leaves project files alone or renames one. -/
def Cmd.tame : Cmd → Bool
  | .mv (.proj _) (.proj _) => true
  | .mv _ _ => false
  | c => c.plain

theorem tame_effect {src : Nat} {d d' : Disk} {c : Cmd} (ht : c.tame = true) (h : c.effect src d = some d') {p : Proj}
    (hn : Named d p) : ∃ q, Named d' q := by
  by_cases hp : c.plain = true
  · exact ⟨p, fun q => by rw [plain_effect hp h q]; exact hn q⟩
  · cases c with
    | mv a b =>
      cases a with
      | proj a =>
        cases b with
        | proj b =>
          simp only [Cmd.effect, Option.map_eq_some_iff] at h
          obtain ⟨c, h1, rfl⟩ := h
          have ha : a = p := (hn a).1 (by rw [h1]; rfl)
          subst ha
          refine ⟨b, fun q => ?_⟩
          simp only [Disk.set, File.proj.injEq]
          by_cases e : q = b
          · simp [e]
          · rw [if_neg e]
            by_cases e' : q = a
            · simp [e']
              intro hab; subst hab; exact e e'
            · rw [if_neg e', hn.none e']
              simp [e]
        | _ => cases ht
      | _ => cases ht
    | _ => exact absurd ht hp

theorem tame_run {src : Nat} {d : Disk} {l : List (Cmd × Fate)} (ht : ∀ e ∈ l, e.1.tame = true) (hn : ∃ p, Named d p) :
    ∃ p, Named (exec src d l).1 p := by
  induction l generalizing d with
  | nil => exact hn
  | cons e l ih =>
    obtain ⟨c, w⟩ := e
    have h1 : ∃ p, Named (c.exec src w d).1 p := by
      rcases (exec_cases src w d c).1 with h | h
      · rw [h]; exact hn
      · obtain ⟨p, hn⟩ := hn
        exact tame_effect (ht (c, w) (by simp)) h hn
    unfold exec
    rcases hx : c.exec src w d with ⟨d', r⟩
    rw [hx] at h1
    cases r with
    | true => exact ih (fun e he => ht e (by simp [he])) h1
    | false => exact h1

/-! ## Runs without failures -/

/-- Files known to exist and the name of the project file, if every command is possible. -/
def can : List File → Proj → List Cmd → Option Proj
  | _, p, [] => some p
  | K, p, .make fs :: l => if (Cmd.make fs).plain then can (fs ++ K) p l else none
  | K, p, .tool :: l => can K p l
  | K, p, .dotnet :: l => can K p l
  | K, p, .rsync a b :: l => if (Cmd.rsync a b).plain && decide (a ∈ K) then can (b :: K) p l else none
  | K, p, .touch f :: l => if (Cmd.touch f).plain then can (f :: K) p l else none
  | K, p, .place f :: l => if (Cmd.place f).plain then can (f :: K) p l else none
  | K, p, .mv (.proj a) (.proj b) :: l => if a = p then can (K.filter fun f => !f.isProj) b l else none
  | _, _, .mv _ _ :: _ => none

theorem can_run {src : Nat} {K : List File} {p q : Proj} {l : List Cmd} {d : Disk} (hc : can K p l = some q)
    (hK : ∀ f ∈ K, (d f).isSome = true) (hn : Named d p) :
    (exec src d (l.map fun c => (c, Fate.ok))).2 = true ∧ Named (exec src d (l.map fun c => (c, Fate.ok))).1 q := by
  induction l generalizing K p d with
  | nil => simp only [can, Option.some.injEq] at hc; subst hc; exact ⟨rfl, hn⟩
  | cons c l ih =>
    have hgo : ∀ (d' : Disk) (K' : List File) (p' : Proj), c.effect src d = some d' → can K' p' l = some q →
        (∀ f ∈ K', (d' f).isSome = true) → Named d' p' →
        (exec src d ((c :: l).map fun c => (c, Fate.ok))).2 = true ∧
          Named (exec src d ((c :: l).map fun c => (c, Fate.ok))).1 q := by
      intro d' K' p' he hc' hK' hn'
      have : exec src d ((c :: l).map fun c => (c, Fate.ok)) = exec src d' (l.map fun c => (c, Fate.ok)) := by
        simp only [List.map_cons, exec, Cmd.exec, he]
      rw [this]
      exact ih hc' hK' hn'
    have hnamed : ∀ d' : Disk, c.plain = true → c.effect src d = some d' → Named d' p := fun d' hp he q => by
      rw [plain_effect hp he q]; exact hn q
    cases c with
    | make fs =>
      unfold can at hc
      split at hc
      · rename_i hp
        refine hgo _ _ _ rfl hc ?_ (hnamed _ hp rfl)
        intro f hf
        by_cases hm : f ∈ fs
        · simp [hm]
        · simp only [hm, if_false]
          exact hK f (by simpa [hm] using hf)
      · cases hc
    | tool => exact hgo _ _ _ rfl hc hK hn
    | dotnet => exact hgo d _ _ (by simp [Cmd.effect, named_projects hn]) hc hK hn
    | rsync a b =>
      unfold can at hc
      split at hc
      · rename_i hp
        simp only [Bool.and_eq_true, decide_eq_true_eq] at hp
        obtain ⟨c, hx⟩ := Option.isSome_iff_exists.1 (hK a hp.2)
        have he : (Cmd.rsync a b).effect src d = some (d.set b (some c)) := by simp [Cmd.effect, hx]
        refine hgo _ _ _ he hc ?_ (hnamed _ hp.1 he)
        intro f hf
        simp only [Disk.set]
        by_cases e : f = b
        · simp [e]
        · rw [if_neg e]; exact hK f (by simpa [e] using hf)
      · cases hc
    | touch f =>
      unfold can at hc
      split at hc
      · rename_i hp
        refine hgo _ _ _ rfl hc ?_ (hnamed _ hp rfl)
        intro g hg
        by_cases hd : d f = none
        · rw [if_pos hd]
          simp only [Disk.set]
          by_cases e : g = f
          · simp [e]
          · rw [if_neg e]; exact hK g (by simpa [e] using hg)
        · rw [if_neg hd]
          rcases List.mem_cons.1 hg with rfl | hg
          · exact Option.isSome_iff_ne_none.2 hd
          · exact hK g hg
      · cases hc
    | place f =>
      unfold can at hc
      split at hc
      · rename_i hp
        refine hgo _ _ _ rfl hc ?_ (hnamed _ hp rfl)
        intro g hg
        by_cases hd : d f = none
        · rw [if_pos hd]
          simp only [Disk.set]
          by_cases e : g = f
          · simp [e]
          · rw [if_neg e]; exact hK g (by simpa [e] using hg)
        · rw [if_neg hd]
          rcases List.mem_cons.1 hg with rfl | hg
          · exact Option.isSome_iff_ne_none.2 hd
          · exact hK g hg
      · cases hc
    | mv a b =>
      cases a with
      | proj a =>
        cases b with
        | proj b =>
          unfold can at hc
          split at hc
          · rename_i hp
            subst hp
            obtain ⟨c, hx⟩ := hn.get
            have he : (Cmd.mv (.proj a) (.proj b)).effect src d =
                some ((d.set (.proj a) none).set (.proj b) (some c)) := by simp [Cmd.effect, hx]
            refine hgo _ _ _ he hc ?_ ?_
            · intro f hf
              obtain ⟨hf, hi⟩ := List.mem_filter.1 hf
              simp only [Disk.set, if_neg (Ne.symm (ne_of_isProj hi a)), if_neg (Ne.symm (ne_of_isProj hi b))]
              exact hK f hf
            · intro r
              simp only [Disk.set, File.proj.injEq]
              by_cases e : r = b
              · simp [e]
              · rw [if_neg e]
                by_cases e' : r = a
                · simp [e', e]; intro hab; subst hab; exact e e'
                · rw [if_neg e', hn.none e']; simp [e]
          · cases hc
        | _ => simp [can] at hc
      | _ => simp [can] at hc

/-! ## What is made from the current sources -/

/-- Files that certainly were made from the current sources; `none` if something else might be copied. -/
def fresh : List File → List Cmd → Option (List File)
  | K, [] => some K
  | K, .make fs :: l => fresh (fs ++ K) l
  | K, .tool :: l => fresh K l
  | K, .dotnet :: l => fresh K l
  | K, .rsync a b :: l => if a ∈ K then fresh (b :: K) l else none
  | K, .touch _ :: l => fresh K l
  | K, .place _ :: l => fresh K l
  | K, .mv (.proj _) (.proj _) :: l => fresh (K.filter fun f => !f.isProj) l
  | _, .mv _ _ :: _ => none

/-- How a file that is no project file can change. -/
def Changed (src : Nat) (d d' : Disk) : Prop :=
  ∀ f : File, f.isProj = false → d' f = d f ∨ d' f = some (.made src) ∨ (d f = none ∧ d' f = some .empty)

theorem Changed.refl (src : Nat) (d : Disk) : Changed src d d := fun _ _ => .inl rfl

theorem Changed.trans {src : Nat} {d d' d'' : Disk} (h1 : Changed src d d') (h2 : Changed src d' d'') :
    Changed src d d'' := by
  intro f hf
  rcases h2 f hf with e | e | ⟨e1, e2⟩
  · rw [e]; exact h1 f hf
  · exact .inr (.inl e)
  · rcases h1 f hf with g | g | ⟨g1, g2⟩
    · exact .inr (.inr ⟨g ▸ e1, e2⟩)
    · rw [g] at e1; cases e1
    · rw [g2] at e1; cases e1

theorem fresh_run {src : Nat} {K K' : List File} {l : List (Cmd × Fate)} {d : Disk}
    (hc : fresh K (l.map Prod.fst) = some K') (hK : ∀ f ∈ K, d f = some (.made src)) :
    Changed src d (exec src d l).1 ∧ ((exec src d l).2 = true → ∀ f ∈ K', (exec src d l).1 f = some (.made src)) := by
  induction l generalizing K d with
  | nil => simp only [List.map_nil, fresh, Option.some.injEq] at hc; subst hc; exact ⟨.refl _ _, fun _ => hK⟩
  | cons e l ih =>
    obtain ⟨c, w⟩ := e
    rw [List.map_cons] at hc
    simp only at hc
    -- a command that takes effect
    have key : ∃ K1, fresh K1 (l.map Prod.fst) = some K' ∧
        (∀ d', c.effect src d = some d' → Changed src d d' ∧ ∀ f ∈ K1, d' f = some (.made src)) ∧
        ((∃ f, c = .place f) → ∀ f ∈ K1, d f = some (.made src)) := by
      cases c with
      | make fs =>
        refine ⟨_, hc, ?_, by simp⟩
        intro d' he
        simp only [Cmd.effect, Option.some.injEq] at he; subst he
        refine ⟨fun f _ => ?_, fun f hf => ?_⟩
        · by_cases hm : f ∈ fs
          · simp [hm]
          · simp [hm]
        · by_cases hm : f ∈ fs
          · simp [hm]
          · simp only [hm, if_false]; exact hK f (by simpa [hm] using hf)
      | tool =>
        refine ⟨_, hc, ?_, by simp⟩
        intro d' he
        simp only [Cmd.effect, Option.some.injEq] at he; subst he
        exact ⟨.refl _ _, hK⟩
      | dotnet =>
        refine ⟨_, hc, ?_, by simp⟩
        intro d' he
        simp only [Cmd.effect] at he
        split at he
        · injection he with he; subst he; exact ⟨.refl _ _, hK⟩
        · cases he
      | rsync a b =>
        unfold fresh at hc
        split at hc
        · rename_i ha
          refine ⟨_, hc, ?_, by simp⟩
          intro d' he
          simp only [Cmd.effect, Option.map_eq_some_iff] at he
          obtain ⟨c, hx, rfl⟩ := he
          rw [hK a ha] at hx; injection hx with hx; subst hx
          refine ⟨fun f _ => ?_, fun f hf => ?_⟩
          · by_cases e : f = b
            · simp [Disk.set, e]
            · simp [Disk.set, e]
          · by_cases e : f = b
            · simp [Disk.set, e]
            · simp only [Disk.set, if_neg e]; exact hK f (by simpa [e] using hf)
        · cases hc
      | touch g =>
        refine ⟨_, hc, ?_, by simp⟩
        intro d' he
        simp only [Cmd.effect, Option.some.injEq] at he; subst he
        by_cases hd : d g = none
        · rw [if_pos hd]
          refine ⟨fun f _ => ?_, fun f hf => ?_⟩
          · by_cases e : f = g
            · subst e; simp [Disk.set, hd]
            · simp [Disk.set, e]
          · have e : f ≠ g := by rintro rfl; rw [hK f hf] at hd; cases hd
            simp only [Disk.set, if_neg e]; exact hK f hf
        · rw [if_neg hd]; exact ⟨.refl _ _, hK⟩
      | place g =>
        refine ⟨_, hc, ?_, fun _ => hK⟩
        intro d' he
        simp only [Cmd.effect, Option.some.injEq] at he; subst he
        by_cases hd : d g = none
        · rw [if_pos hd]
          refine ⟨fun f _ => ?_, fun f hf => ?_⟩
          · by_cases e : f = g
            · subst e; simp [Disk.set, hd]
            · simp [Disk.set, e]
          · have e : f ≠ g := by rintro rfl; rw [hK f hf] at hd; cases hd
            simp only [Disk.set, if_neg e]; exact hK f hf
        · rw [if_neg hd]; exact ⟨.refl _ _, hK⟩
      | mv a b =>
        cases a with
        | proj a =>
          cases b with
          | proj b =>
            refine ⟨_, hc, ?_, by simp⟩
            intro d' he
            simp only [Cmd.effect, Option.map_eq_some_iff] at he
            obtain ⟨c, hx, rfl⟩ := he
            have hne : ∀ f : File, f.isProj = false → ((d.set (.proj a) none).set (.proj b) (some c)) f = d f := by
              intro f hf
              have h1 : f ≠ .proj a := by rintro rfl; cases hf
              have h2 : f ≠ .proj b := by rintro rfl; cases hf
              simp [Disk.set, h1, h2]
            refine ⟨fun f hf => .inl (hne f hf), fun f hf => ?_⟩
            obtain ⟨hf, hi⟩ := List.mem_filter.1 hf
            rw [hne f (by simpa using hi)]
            exact hK f hf
          | _ => simp [fresh] at hc
        | _ => simp [fresh] at hc
    obtain ⟨K1, hc1, hef, hpl⟩ := key
    obtain ⟨g1, g2⟩ := exec_cases src w d c
    unfold exec
    rcases hx : c.exec src w d with ⟨d', r⟩
    rw [hx] at g1 g2
    have hch : Changed src d d' := by
      rcases g1 with e | e
      · simp only at e; rw [e]; exact .refl _ _
      · exact (hef _ e).1
    cases r with
    | true =>
      have hK1 : ∀ f ∈ K1, d' f = some (.made src) := by
        rcases g2 rfl with e | ⟨e, _, hp⟩
        · exact (hef _ e).2
        · simp only at e; rw [e]; exact hpl hp
      obtain ⟨i1, i2⟩ := ih hc1 hK1
      exact ⟨hch.trans i1, i2⟩
    | false => exact ⟨hch, by simp⟩

/-! ## Files nothing is made for -/

/-- A file the commands make, copy to or rename. -/
def Cmd.writes : Cmd → List File
  | .make fs => fs
  | .rsync _ b => [b]
  | .mv a b => [a, b]
  | _ => []

theorem unwritten_effect {src : Nat} {d d' : Disk} {c : Cmd} {f : File} (hf : f ∉ c.writes)
    (h : c.effect src d = some d') (hd : (d f).isSome = true) : d' f = d f := by
  cases c with
  | make fs =>
    simp only [Cmd.effect, Option.some.injEq] at h; subst h
    simp only [Cmd.writes] at hf; simp [hf]
  | tool => simp only [Cmd.effect, Option.some.injEq] at h; subst h; rfl
  | dotnet =>
    simp only [Cmd.effect] at h
    split at h
    · injection h with h; subst h; rfl
    · cases h
  | rsync a b =>
    simp only [Cmd.effect, Option.map_eq_some_iff] at h
    obtain ⟨c, _, rfl⟩ := h
    simp only [Cmd.writes, List.mem_singleton] at hf
    simp [Disk.set, hf]
  | touch g =>
    simp only [Cmd.effect, Option.some.injEq] at h; subst h
    split
    · rename_i hg
      have e : f ≠ g := by rintro rfl; rw [hg] at hd; cases hd
      simp [Disk.set, e]
    · rfl
  | place g =>
    simp only [Cmd.effect, Option.some.injEq] at h; subst h
    split
    · rename_i hg
      have e : f ≠ g := by rintro rfl; rw [hg] at hd; cases hd
      simp [Disk.set, e]
    · rfl
  | mv a b =>
    simp only [Cmd.effect, Option.map_eq_some_iff] at h
    obtain ⟨c, _, rfl⟩ := h
    simp only [Cmd.writes, List.mem_cons, List.not_mem_nil, or_false, not_or] at hf
    simp [Disk.set, hf.1, hf.2]

theorem unwritten_run {src : Nat} {d : Disk} {l : List (Cmd × Fate)} {f : File} (hf : ∀ e ∈ l, f ∉ e.1.writes)
    (hd : (d f).isSome = true) : (exec src d l).1 f = d f := by
  induction l generalizing d with
  | nil => rfl
  | cons e l ih =>
    obtain ⟨c, w⟩ := e
    have h1 : (c.exec src w d).1 f = d f := by
      rcases (exec_cases src w d c).1 with h | h
      · rw [h]
      · exact unwritten_effect (hf (c, w) (by simp)) h hd
    unfold exec
    rcases hx : c.exec src w d with ⟨d', r⟩
    rw [hx] at h1
    simp only at h1
    cases r with
    | true => simp only []; rw [← h1]; exact ih (fun e he => hf e (by simp [he])) (by rw [h1]; exact hd)
    | false => exact h1

/-- A placeholder is there after a run that did not stop, unless its `mkdir` failed. -/
theorem placed_run {src : Nat} {d : Disk} {l : List (Cmd × Fate)} {f : File} (hc : (fresh [] (l.map Prod.fst)).isSome = true)
    (hm : ∃ w, (Cmd.place f, w) ∈ l ∧ w ≠ .dir) (hp : f.isProj = false) (hok : (exec src d l).2 = true) :
    ((exec src d l).1 f).isSome = true := by
  obtain ⟨w, hm, hw⟩ := hm
  obtain ⟨l1, l2, rfl⟩ := List.append_of_mem hm
  have hsplit : ∀ (K : List File) (a b : List Cmd), (fresh K (a ++ b)).isSome = true →
      ∃ K', fresh K a = some K' ∧ (fresh K' b).isSome = true := by
    intro K a b
    induction a generalizing K with
    | nil => intro h; exact ⟨K, rfl, h⟩
    | cons c a ih =>
      intro h
      cases c with
      | rsync x y =>
        simp only [List.cons_append, fresh] at h ⊢
        split at h
        · rename_i hx; rw [if_pos hx]; exact ih _ h
        · cases h
      | mv x y =>
        cases x with
        | proj x =>
          cases y with
          | proj y => exact ih _ h
          | _ => simp [fresh] at h
        | _ => simp [fresh] at h
      | _ => exact ih _ h
  rw [exec_append] at hok ⊢
  by_cases h1 : (exec src d l1).2 = true
  · rw [if_pos h1] at hok ⊢
    rw [List.map_append] at hc
    obtain ⟨K1, a1, a2⟩ := hsplit _ _ _ hc
    have hK := (fresh_run (src := src) (d := d) a1 (by simp)).2 h1
    generalize hd1 : (exec src d l1).1 = d1 at hok hK ⊢
    unfold exec at hok ⊢
    rcases hx : (Cmd.place f).exec src w d1 with ⟨d', r⟩
    rw [hx] at hok
    cases r with
    | false => cases hok
    | true =>
      simp only at hok ⊢
      have g := (exec_cases src w d1 (.place f)).2 (by rw [hx])
      rw [hx] at g
      have he : (Cmd.place f).effect src d1 = some d' := by
        rcases g with g | ⟨_, g, _⟩
        · exact g
        · exact absurd g hw
      have hsome : (d' f).isSome = true := by
        simp only [Cmd.effect, Option.some.injEq] at he
        subst he
        by_cases hd : d1 f = none
        · simp [Disk.set, hd]
        · rw [if_neg hd]; exact Option.isSome_iff_ne_none.2 hd
      have hK' : ∀ g ∈ K1, d' g = some (.made src) := by
        intro g hg
        rw [unwritten_effect (by simp [Cmd.writes]) he (by rw [hK g hg]; rfl)]
        exact hK g hg
      obtain ⟨K2, hc2⟩ := Option.isSome_iff_exists.1 (show (fresh K1 (l2.map Prod.fst)).isSome = true by
        simpa [fresh] using a2)
      rcases (fresh_run (src := src) (l := l2) hc2 hK').1 f hp with e | e | ⟨e, _⟩
      · rw [e]; exact hsome
      · rw [e]; rfl
      · rw [e] at hsome; cases hsome
  · rw [if_neg h1] at hok; exact absurd hok h1

end Verif.Build
