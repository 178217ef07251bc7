import Verif.Spec.Gradle
import Verif.Props.BuildScript
/-!
# C122–C125: the step that puts the native libraries into the Android project
-/
namespace Verif.Props
open Verif Spec
namespace GradleStep
open Gradle

open Build in
theorem blank_effect {src : Nat} {d d' : Build.Disk} {c : Cmd} {f : File} (hf : f ∉ c.writes) (h : c.effect src d = some d')
    (hd : d f = none) : d' f = none ∨ d' f = some .empty := by
  cases c with
  | make fs =>
    simp only [Cmd.effect, Option.some.injEq] at h; subst h
    simp only [Cmd.writes] at hf
    simp [hf, hd]
  | tool => simp only [Cmd.effect, Option.some.injEq] at h; subst h; exact .inl hd
  | dotnet =>
    simp only [Cmd.effect] at h
    split at h
    · injection h with h; subst h; exact .inl hd
    · cases h
  | rsync a b =>
    simp only [Cmd.effect, Option.map_eq_some_iff] at h
    obtain ⟨c, _, rfl⟩ := h
    simp only [Cmd.writes, List.mem_singleton] at hf
    simp [Build.Disk.set, hf, hd]
  | touch g =>
    simp only [Cmd.effect, Option.some.injEq] at h; subst h
    split
    · by_cases e : f = g
      · exact .inr (by simp [Build.Disk.set, e])
      · exact .inl (by simp [Build.Disk.set, e, hd])
    · exact .inl hd
  | place g =>
    simp only [Cmd.effect, Option.some.injEq] at h; subst h
    split
    · by_cases e : f = g
      · exact .inr (by simp [Build.Disk.set, e])
      · exact .inl (by simp [Build.Disk.set, e, hd])
    · exact .inl hd
  | mv a b =>
    simp only [Cmd.effect, Option.map_eq_some_iff] at h
    obtain ⟨c, _, rfl⟩ := h
    simp only [Cmd.writes, List.mem_cons, List.not_mem_nil, or_false, not_or] at hf
    simp [Build.Disk.set, hf.1, hf.2, hd]

open Build in
theorem blank_run {src : Nat} {d : Build.Disk} {l : List (Cmd × Fate)} {f : File} (hf : ∀ e ∈ l, f ∉ e.1.writes)
    (hd : d f = none) : (exec src d l).1 f = none ∨ (exec src d l).1 f = some .empty := by
  induction l generalizing d with
  | nil => exact .inl hd
  | cons e l ih =>
    obtain ⟨c, w⟩ := e
    have h1 : (c.exec src w d).1 f = none ∨ (c.exec src w d).1 f = some .empty := by
      rcases (exec_cases src w d c).1 with h | h
      · rw [h]; exact .inl hd
      · exact blank_effect (hf (c, w) (by simp)) h hd
    unfold exec
    rcases hx : c.exec src w d with ⟨d', r⟩
    rw [hx] at h1
    simp only at h1
    cases r with
    | true =>
      simp only []
      rcases h1 with h1 | h1
      · exact ih (fun e he => hf e (by simp [he])) h1
      · right
        rw [unwritten_run (fun e he => hf e (by simp [he])) (by rw [h1]; rfl), h1]
    | false => exact h1

theorem split_append (cur a b : List Char) : split cur (a ++ '/' :: b) = split cur a ++ split [] b := by
  induction a generalizing cur with
  | nil => simp [split]
  | cons c a ih =>
    simp only [List.cons_append, split]
    split
    · rw [ih]; rfl
    · exact ih _

theorem comps_slash (a b : String) : comps (a ++ "/" ++ b) = comps a ++ comps b := by
  unfold comps
  rw [String.toList_append, String.toList_append, List.append_assoc, show "/".toList ++ b.toList = '/' :: b.toList from rfl,
    split_append, List.filter_append]

theorem comps_empty : comps "" = [] := by decide

theorem foldl_up {p c : List String} (h : ".." ∉ c) : c.foldl up p = p ++ c := by
  induction c generalizing p with
  | nil => simp
  | cons a c ih =>
    simp only [List.mem_cons, not_or] at h
    simp only [List.foldl_cons]
    rw [ih h.2]
    unfold up
    rw [if_neg (fun e => h.1 e.symm)]
    simp

theorem absolute_slash (cwd : Path) (a n : String) :
    absolute cwd (a ++ "/" ++ n) = (comps n).foldl up (absolute cwd (a ++ "/")) := by
  unfold absolute
  have h1 : comps (a ++ "/") = comps a := by
    have := comps_slash a ""
    rw [String.append_empty, comps_empty, List.append_nil] at this; exact this
  have h2 : (a ++ "/" ++ n).toList.head? = (a ++ "/").toList.head? := by
    rw [show (a ++ "/" ++ n).toList = (a ++ "/").toList ++ n.toList from String.toList_append]
    have : (a ++ "/").toList ≠ [] := by rw [String.toList_append]; simp
    cases hl : (a ++ "/").toList with
    | nil => exact absurd hl this
    | cons x l => rfl
  rw [comps_slash, h1, h2, List.foldl_append]

theorem src_path (cwd : Path) (s : Settings) (n : String) :
    absolute cwd (srcOf s n) = (comps n).foldl up (pluginsPath cwd s) := absolute_slash cwd _ n

theorem lib_path (cwd : Path) (u : String) : absolute cwd (libDir u ++ "/") = libPath cwd u := by
  have h0 : libDir u ++ "/" = u ++ "/" ++ "src/main/jniLibs/" := by
    unfold libDir
    rw [String.append_assoc, String.append_assoc]; rfl
  rw [h0, absolute_slash, foldl_up (by decide +kernel)]
  unfold libPath
  rw [show comps "src/main/jniLibs/" = ["src", "main", "jniLibs"] from by decide +kernel]

theorem dst_path (cwd : Path) (u n : String) : absolute cwd (dstOf u n) = (comps n).foldl up (libPath cwd u) := by
  unfold dstOf
  rw [absolute_slash, lib_path]

/-- The tree after the listed libraries were put in place. -/
def Final (t : Tree) (lib plugins : Path) (names : List String) (t' : Tree) : Prop :=
  (∀ n ∈ names, ∀ r : Path, t' (lib ++ comps n ++ r) = content t (plugins ++ comps n ++ r)) ∧
  ∀ q : Path, (∀ n ∈ names, ¬ lib ++ comps n <+: q) → t' q = t q

theorem Final.unique {t : Tree} {lib plugins : Path} {names : List String} {t1 t2 : Tree} (h1 : Final t lib plugins names t1)
    (h2 : Final t lib plugins names t2) : t1 = t2 := by
  funext q
  by_cases h : ∃ n ∈ names, lib ++ comps n <+: q
  · obtain ⟨n, hn, r, rfl⟩ := h
    rw [h1.1 n hn, h2.1 n hn]
  · have h : ∀ n ∈ names, ¬ lib ++ comps n <+: q := fun n hn hp => h ⟨n, hn, hp⟩
    rw [h1.2 q h, h2.2 q h]

theorem lib_of {lib c q : Path} (h : lib ++ c <+: q) : lib <+: q := (List.prefix_append lib c).trans h

/-- What one turn of the loop does. -/
theorem final_next {t0 t t1 : Tree} {lib plugins : Path} {done : List String} {n : String} {all : List String}
    (hA : Apart t0 lib plugins all) (hn : n ∈ all) (hF : Final t0 lib plugins done t)
    (hc : copy (delete t (lib ++ comps n)) (plugins ++ comps n) (lib ++ comps n) = some t1) :
    Final t0 lib plugins (done ++ [n]) t1 := by
  unfold copy at hc
  split at hc
  case isFalse => cases hc
  case isTrue =>
  injection hc with hc
  have hout : ∀ q : Path, ¬ lib <+: q → delete t (lib ++ comps n) q = t0 q := by
    intro q hq
    unfold delete
    rw [if_neg (fun h => hq (lib_of h))]
    exact hF.2 q fun m _ h => hq (lib_of h)
  have hin : ∀ r : Path, t1 (lib ++ comps n ++ r) = content t0 (plugins ++ comps n ++ r) := by
    intro r
    rw [← hc]
    simp only
    rw [if_pos (List.prefix_append _ _), List.drop_left]
    exact hA _ hout n hn r
  have hoth : ∀ q : Path, ¬ lib ++ comps n <+: q → t1 q = t q := by
    intro q hq
    rw [← hc]
    simp only
    rw [if_neg hq]
    unfold delete
    rw [if_neg hq]
  constructor
  · intro m hm r
    rcases List.mem_append.1 hm with hm | hm
    · by_cases h : lib ++ comps n <+: lib ++ comps m ++ r
      · obtain ⟨r', e⟩ := h
        rw [← e, hin]
        congr 1
        have e : comps n ++ r' = comps m ++ r := by simpa using e
        rw [List.append_assoc, e, List.append_assoc]
      · rw [hoth _ h]; exact hF.1 m hm r
    · rw [List.mem_singleton.1 hm]; exact hin r
  · intro q hq
    rw [hoth q (hq n (by simp))]
    exact hF.2 q fun m hm => hq m (by simp [hm])

theorem loop_completed {t0 t t' : Tree} {lib plugins : Path} {all : List String} (hA : Apart t0 lib plugins all) :
    ∀ (names done : List String), (∀ n ∈ names, n ∈ all) → Final t0 lib plugins done t →
      Loop t (names.map fun n => (plugins ++ comps n, lib ++ comps n)) t' true → Final t0 lib plugins (done ++ names) t' := by
  intro names
  induction names generalizing t with
  | nil => intro done _ hF h; cases h; simpa using hF
  | cons n names ih =>
    intro done hm hF h
    cases h with
    | next _ t1 _ _ _ _ _ hc hl =>
      have := ih (done ++ [n]) (fun m h => hm m (by simp [h])) (final_next hA (hm n (by simp)) hF hc) hl
      simpa using this

theorem Final.nil (t : Tree) (lib plugins : Path) : Final t lib plugins [] t := ⟨by simp, fun _ _ => rfl⟩

/-- The loop can go through if everything is ready. -/
theorem loop_complete {t0 t : Tree} {lib plugins : Path} {all : List String} (hA : Apart t0 lib plugins all)
    (hp : ∀ n ∈ all, Proper n) (hN : NoneInside all) (hR : ∀ n ∈ all, Ready t0 lib plugins n) :
    ∀ (names done : List String), (∀ n ∈ names, n ∈ all) → (∀ n ∈ done, n ∈ all) → Final t0 lib plugins done t →
      ∃ t', Loop t (names.map fun n => (plugins ++ comps n, lib ++ comps n)) t' true := by
  intro names
  induction names generalizing t with
  | nil => intro done _ _ hF; exact ⟨t, .done t⟩
  | cons n names ih =>
    intro done hm hd hF
    have hn := hm n (by simp)
    obtain ⟨r1, r2⟩ := hR n hn
    have hc1 : content (delete t (lib ++ comps n)) (plugins ++ comps n) = content t0 (plugins ++ comps n) := by
      have := hA (delete t (lib ++ comps n)) (fun q hq => by
        unfold delete
        rw [if_neg (fun h => hq (lib_of h))]
        exact hF.2 q fun m _ h => hq (lib_of h)) n hn []
      simpa using this
    have hc2 : delete t (lib ++ comps n) (lib ++ comps n) = none := by
      unfold delete; rw [if_pos List.prefix_rfl]
    have hne : lib ++ comps n ≠ [] := by simp [(hp n hn).1]
    have hlen : (lib ++ comps n).dropLast.length < (lib ++ comps n).length := by
      rw [List.length_dropLast]
      have := List.length_pos_iff.2 hne
      omega
    have hno : ∀ m ∈ all, ¬ lib ++ comps m <+: (lib ++ comps n).dropLast := by
      intro m hm' h
      have h2 : lib ++ comps m <+: lib ++ comps n := h.trans (List.dropLast_prefix _)
      have h3 := hN m hm' n hn ((List.prefix_append_right_inj lib).1 h2)
      have := h.length_le
      rw [h3] at this
      omega
    have hc3 : delete t (lib ++ comps n) (lib ++ comps n).dropLast = some .dir := by
      unfold delete
      rw [if_neg (hno n hn), hF.2 _ fun m h => hno m (hd m h)]
      exact r2
    have hc : ∃ t1, copy (delete t (lib ++ comps n)) (plugins ++ comps n) (lib ++ comps n) = some t1 := by
      unfold copy
      rw [if_pos ⟨by rw [hc1]; exact r1, hc2, hc3⟩]
      exact ⟨_, rfl⟩
    obtain ⟨t1, hc⟩ := hc
    obtain ⟨t', h⟩ := ih (done ++ [n]) (fun m h => hm m (by simp [h]))
      (fun m h => by rcases List.mem_append.1 h with h | h; exact hd m h; rw [List.mem_singleton.1 h]; exact hn)
      (final_next hA hn hF hc)
    exact ⟨t', .next _ t1 _ _ _ _ _ hc h⟩

/-- If it went through, everything was ready. -/
theorem loop_ready {t0 t t' : Tree} {lib plugins : Path} {all : List String} (hA : Apart t0 lib plugins all)
    (hp : ∀ n ∈ all, Proper n) (hN : NoneInside all) :
    ∀ (names done : List String), (∀ n ∈ names, n ∈ all) → (∀ n ∈ done, n ∈ all) → Final t0 lib plugins done t →
      Loop t (names.map fun n => (plugins ++ comps n, lib ++ comps n)) t' true → ∀ n ∈ names, Ready t0 lib plugins n := by
  intro names
  induction names generalizing t with
  | nil => intro done _ _ _ _ n hn; cases hn
  | cons n names ih =>
    intro done hm hd hF h
    have hn := hm n (by simp)
    cases h with
    | next _ t1 _ _ _ _ _ hc hl =>
      have hrest := ih (done ++ [n]) (fun m h => hm m (by simp [h]))
        (fun m h => by rcases List.mem_append.1 h with h | h; exact hd m h; rw [List.mem_singleton.1 h]; exact hn)
        (final_next hA hn hF hc) hl
      intro m hmm
      rcases List.mem_cons.1 hmm with rfl | hmm
      · unfold copy at hc
        split at hc
        case isFalse => cases hc
        case isTrue hcond =>
        obtain ⟨c1, _, c3⟩ := hcond
        have hne : lib ++ comps m ≠ [] := by simp [(hp m hn).1]
        have hlen : (lib ++ comps m).dropLast.length < (lib ++ comps m).length := by
          rw [List.length_dropLast]
          have := List.length_pos_iff.2 hne
          omega
        have hno : ∀ k ∈ all, ¬ lib ++ comps k <+: (lib ++ comps m).dropLast := by
          intro k hk h
          have h2 : lib ++ comps k <+: lib ++ comps m := h.trans (List.dropLast_prefix _)
          have h3 := hN k hk m hn ((List.prefix_append_right_inj lib).1 h2)
          have := h.length_le
          rw [h3] at this
          omega
        have hc1 : content (delete t (lib ++ comps m)) (plugins ++ comps m) = content t0 (plugins ++ comps m) := by
          have := hA (delete t (lib ++ comps m)) (fun q hq => by
            unfold delete
            rw [if_neg (fun h => hq (lib_of h))]
            exact hF.2 q fun k _ h => hq (lib_of h)) m hn []
          simpa using this
        refine ⟨by rw [← hc1]; exact c1, ?_⟩
        unfold delete at c3
        rw [if_neg (hno m hn), hF.2 _ fun k h => hno k (hd k h)] at c3
        exact c3
      · exact hrest m hmm

/-- The loop changes nothing elsewhere. -/
theorem loop_frame {t t' : Tree} {l : List (Path × Path)} {b : Bool} (h : Loop t l t' b) (q : Path)
    (hq : ∀ e ∈ l, ¬ e.2 <+: q) : t' q = t q := by
  induction h with
  | done => rfl
  | stopped t t' src dst rest h => exact h q (hq (src, dst) (by simp))
  | next t t1 t' src dst rest b hc _ ih =>
    rw [ih fun e he => hq e (by simp [he])]
    have hd := hq (src, dst) (by simp)
    unfold copy at hc
    split at hc
    case isFalse => cases hc
    case isTrue =>
    injection hc with hc
    rw [← hc]
    simp only
    rw [if_neg hd]
    unfold delete
    rw [if_neg hd]

theorem paths_proper (cwd : Path) (u : String) (s : Settings) {names : List String} (hp : ∀ n ∈ names, Proper n) :
    (names.map fun n => (absolute cwd (srcOf s n), absolute cwd (dstOf u n))) =
      names.map fun n => (pluginsPath cwd s ++ comps n, libPath cwd u ++ comps n) := by
  refine List.map_congr_left fun n hn => ?_
  rw [src_path, dst_path, foldl_up (hp n hn).2, foldl_up (hp n hn).2]

theorem scan_at {t : Tree} {rest done q : Path} (h : scan t done rest = .at q) :
    q = done ∨ ∃ x, t q = some x ∧ ∀ target, x ≠ .link target := by
  induction rest generalizing done with
  | nil => unfold scan at h; cases h; exact .inl rfl
  | cons c rest ih =>
    unfold scan at h
    split at h
    · cases h
    · cases h
    · rename_i x hl hx
      rcases ih h with rfl | h
      · exact .inr ⟨x, hx, fun target e => hl target e⟩
      · exact .inr h

theorem content_not_link {t : Tree} (hr : t [] = some .dir) {p : Path} {x : Node} (h : content t p = some x) (target : Path) :
    x ≠ .link target := by
  unfold content at h
  have key : ∀ (n : Nat) (p q : Path), real t n p = some q → q = [] ∨ ∃ x, t q = some x ∧ ∀ target, x ≠ .link target := by
    intro n
    induction n with
    | zero =>
      intro p q h
      unfold real at h
      split at h
      · rename_i hs; injection h with h; subst h; exact scan_at hs
      · cases h
    | succ n ih =>
      intro p q h
      unfold real at h
      split at h
      · rename_i hs; injection h with h; subst h; exact scan_at hs
      · exact ih _ _ h
      · cases h
  cases hq : real t maxLinks p with
  | none => rw [hq] at h; cases h
  | some q =>
    rw [hq] at h
    have h : t q = some x := h
    rcases key _ _ _ hq with rfl | ⟨y, hy, hy'⟩
    · rw [hr] at h; injection h with h; subst h; intro e; cases e
    · rw [hy] at h; injection h with h; subst h; exact hy' target

end GradleStep
open Gradle GradleStep

/-- **C122.** If the step completes, then there is exactly one settings object; each library it lists, with everything below it,
is what the plugin leads to, and not a link; everything else is as before. -/
theorem C122_links_replaced {cwd : Path} {u : String} {found : List Settings} {t t' : Tree} (h : Step cwd u found t t' true)
    (hp : ∀ s ∈ found, ∀ n ∈ s.androidLibNames, Proper n)
    (hA : ∀ s ∈ found, Apart t (libPath cwd u) (pluginsPath cwd s) s.androidLibNames) (hroot : t [] = some .dir) :
    ∃ s, found = [s] ∧
      (∀ n ∈ s.androidLibNames, (∃ x, t' (libPath cwd u ++ comps n) = some x ∧ content t (pluginsPath cwd s ++ comps n) = some x ∧
          ∀ target, x ≠ .link target) ∧
        ∀ r : Path, t' (libPath cwd u ++ comps n ++ r) = content t (pluginsPath cwd s ++ comps n ++ r)) ∧
      ∀ q : Path, (∀ n ∈ s.androidLibNames, ¬ libPath cwd u ++ comps n <+: q) → t' q = t q := by
  cases h with
  | some s _ _ _ hs hl =>
    have hf : found = [s] := by
      unfold getDefaults at hs
      split at hs
      · injection hs with hs; rw [hs]
      · cases hs
    subst hf
    have hp := hp s (by simp)
    have hA := hA s (by simp)
    rw [paths_proper cwd u s hp] at hl
    have hF := loop_completed hA s.androidLibNames [] (fun _ h => h) (.nil t _ _) hl
    rw [List.nil_append] at hF
    refine ⟨s, rfl, fun n hn => ⟨?_, hF.1 n hn⟩, hF.2⟩
    have h0 := hF.1 n hn []
    rw [List.append_nil, List.append_nil] at h0
    rw [h0]
    -- the copy of this library succeeded
    have hsome : (content t (pluginsPath cwd s ++ comps n)).isSome = true := by
      have key : ∀ (names done : List String) (t1 : Tree), (∀ m ∈ names, m ∈ s.androidLibNames) →
          Final t (libPath cwd u) (pluginsPath cwd s) done t1 →
          Loop t1 (names.map fun n => (pluginsPath cwd s ++ comps n, libPath cwd u ++ comps n)) t' true →
          n ∈ names → (content t (pluginsPath cwd s ++ comps n)).isSome = true := by
        intro names
        induction names with
        | nil => intro _ _ _ _ _ hm; cases hm
        | cons m names ih =>
          intro done t1 hsub hF1 hl1 hm
          cases hl1 with
          | next _ t2 _ _ _ _ _ hc hl2 =>
            rcases List.mem_cons.1 hm with rfl | hm
            · unfold copy at hc
              split at hc
              case isFalse => cases hc
              case isTrue hcond =>
              have e := hA (delete t1 (libPath cwd u ++ comps n)) (fun q hq => by
                unfold delete
                rw [if_neg (fun h => hq (lib_of h))]
                exact hF1.2 q fun k _ h => hq (lib_of h)) n hn []
              rw [List.append_nil] at e
              rw [← e]; exact hcond.1
            · exact ih (done ++ [m]) t2 (fun k h => hsub k (by simp [h]))
                (final_next hA (hsub m (by simp)) hF1 hc) hl2 hm
      exact key s.androidLibNames [] t (fun _ h => h) (.nil t _ _) hl hn
    cases hx : content t (pluginsPath cwd s ++ comps n) with
    | none => rw [hx] at hsome; cases hsome
    | some x => exact ⟨x, rfl, rfl, content_not_link hroot hx⟩

/-- **C122.** It can complete if and only if there is exactly one settings object, each library it lists is there and so is the
directory it is to be put in. -/
theorem C122_completes_iff (cwd : Path) (u : String) (found : List Settings) (t : Tree)
    (hp : ∀ s ∈ found, ∀ n ∈ s.androidLibNames, Proper n) (hN : ∀ s ∈ found, NoneInside s.androidLibNames)
    (hA : ∀ s ∈ found, Apart t (libPath cwd u) (pluginsPath cwd s) s.androidLibNames) :
    (∃ t', Step cwd u found t t' true) ↔
      ∃ s, found = [s] ∧ ∀ n ∈ s.androidLibNames, Ready t (libPath cwd u) (pluginsPath cwd s) n := by
  constructor
  · rintro ⟨t', h⟩
    cases h with
    | some s _ _ _ hs hl =>
      have hf : found = [s] := by
        unfold getDefaults at hs
        split at hs
        · injection hs with hs; rw [hs]
        · cases hs
      subst hf
      rw [paths_proper cwd u s (hp s (by simp))] at hl
      exact ⟨s, rfl, loop_ready (hA s (by simp)) (hp s (by simp)) (hN s (by simp)) _ [] (fun _ h => h) (by simp)
        (.nil t _ _) hl⟩
  · rintro ⟨s, rfl, hR⟩
    obtain ⟨t', h⟩ := loop_complete (hA s (by simp)) (hp s (by simp)) (hN s (by simp)) hR s.androidLibNames []
      (fun _ h => h) (by simp) (.nil t _ _)
    rw [← paths_proper cwd u s (hp s (by simp))] at h
    exact ⟨t', .some s t t' true rfl h⟩

/-! ## C123: nothing else is touched -/

/-- Claim C123: wherever the step stops, what is not part of a listed library is as it was. -/
def OnlyListed : Prop :=
  ∀ (cwd : Path) (u : String) (found : List Settings) (t t' : Tree) (b : Bool), Step cwd u found t t' b → ∀ q : Path,
    (∀ s ∈ found, ∀ n ∈ s.androidLibNames, comps n ≠ [] → ¬ libPath cwd u ++ comps n <+: q) → t' q = t q

/-- **C123, partial.** So it is if the names are as meant: not empty and not leading up. -/
theorem C123_only_listed_partial {cwd : Path} {u : String} {found : List Settings} {t t' : Tree} {b : Bool}
    (h : Step cwd u found t t' b) (hp : ∀ s ∈ found, ∀ n ∈ s.androidLibNames, Proper n) (q : Path)
    (hq : ∀ s ∈ found, ∀ n ∈ s.androidLibNames, ¬ libPath cwd u ++ comps n <+: q) : t' q = t q := by
  cases h with
  | none => rfl
  | some s _ _ _ hs hl =>
    have hf : s ∈ found := by
      unfold getDefaults at hs
      split at hs
      · injection hs with hs; rw [hs]; simp
      · cases hs
    rw [paths_proper cwd u s (hp s hf)] at hl
    refine loop_frame hl q fun e he => ?_
    obtain ⟨n, hn, rfl⟩ := List.mem_map.1 he
    exact hq s hf n hn

/-- In general what can change is below the paths the names mean. -/
theorem C123_in_general_partial {cwd : Path} {u : String} {found : List Settings} {t t' : Tree} {b : Bool}
    (h : Step cwd u found t t' b) (q : Path)
    (hq : ∀ s ∈ found, ∀ n ∈ s.androidLibNames, ¬ (comps n).foldl up (libPath cwd u) <+: q) : t' q = t q := by
  cases h with
  | none => rfl
  | some s _ _ _ hs hl =>
    have hf : s ∈ found := by
      unfold getDefaults at hs
      split at hs
      · injection hs with hs; rw [hs]; simp
      · cases hs
    refine loop_frame hl q fun e he => ?_
    obtain ⟨n, hn, rfl⟩ := List.mem_map.1 he
    rw [dst_path]
    exact hq s hf n hn

/-- **C123, partial: the empty entry.** One empty name - what the editor puts into a new entry of the list - replaces the whole
directory of libraries by the directory of plugins: libraries that other plugins put there are gone. -/
theorem C123_empty_entry_partial {cwd : Path} {u : String} {s : Settings} (hs : s.androidLibNames = [""]) {t t' : Tree}
    (h : Step cwd u [s] t t' true) (r : Path) :
    t' (libPath cwd u ++ r) = content (delete t (libPath cwd u)) (pluginsPath cwd s ++ r) := by
  cases h with
  | some s' _ _ _ hs' hl =>
    injection hs' with hs'; subst hs'
    rw [hs] at hl
    simp only [List.map_cons, List.map_nil, src_path, dst_path, comps_empty, List.foldl_nil] at hl
    cases hl with
    | next _ t1 _ _ _ _ _ hc hl =>
      cases hl
      unfold copy at hc
      split at hc
      case isFalse => cases hc
      case isTrue =>
      injection hc with hc
      rw [← hc]
      simp only
      rw [if_pos (List.prefix_append _ _), List.drop_left]

theorem copy_of {t : Tree} {src dst : Path} (h : (content t src).isSome ∧ t dst = none ∧ t dst.dropLast = some .dir) :
    copy t src dst = some fun q => if dst <+: q then content t (src ++ q.drop dst.length) else t q := if_pos h

/-- A disk given by a list. -/
def diskOf (l : List (Path × Node)) : Tree := fun q => (l.find? fun e => e.1 = q).map Prod.snd

/-- A Unity project in `/p` with two libraries, of which one was not built, and a Gradle project in `/g` with links to them and
another library. -/
def unityFiles : List (Path × Node) := [([], .dir), (["g"], .dir), (["g", "src"], .dir), (["g", "src", "main"], .dir),
  (["g", "src", "main", "manifest"], .file .other),
  (["g", "src", "main", "jniLibs"], .dir), (["g", "src", "main", "jniLibs", "other.so"], .file .other),
  (["g", "src", "main", "jniLibs", "arm64-v8a"], .dir),
  (["g", "src", "main", "jniLibs", "arm64-v8a", "lib.so"], .link ["t", "a64", "lib.so"]),
  (["g", "src", "main", "jniLibs", "armeabi-v7a"], .dir),
  (["g", "src", "main", "jniLibs", "armeabi-v7a", "lib.so"], .link ["t", "a32", "lib.so"]),
  (["p"], .dir), (["p", "A"], .dir), (["p", "A", "arm64-v8a"], .dir), (["p", "A", "armeabi-v7a"], .dir),
  (["p", "A", "arm64-v8a", "lib.so"], .link ["t", "a64", "lib.so"]),
  (["p", "A", "armeabi-v7a", "lib.so"], .link ["t", "a32", "lib.so"]),
  (["t"], .dir), (["t", "a64"], .dir), (["t", "a64", "lib.so"], .file (.made 1)),
  (["t", "a32"], .dir), (["t", "a32", "lib.so"], .file .empty)]

def unityDisk : Tree := diskOf unityFiles

def unitySettings : Settings := ⟨"A", ["arm64-v8a/lib.so", "armeabi-v7a/lib.so"]⟩

/-- **C123, refuted.** An empty entry is enough. -/
theorem C123_negation : ¬ OnlyListed := by
  intro h
  have hc : copy (delete unityDisk ["g", "src", "main", "jniLibs"]) ["p", "A"] ["g", "src", "main", "jniLibs"] = some _ :=
    copy_of (by decide +kernel)
  have hl := Loop.next unityDisk _ _ ["p", "A"] ["g", "src", "main", "jniLibs"] [] true hc (.done _)
  have e : ([""].map fun n => (absolute ["p"] (srcOf ⟨"A", [""]⟩ n), absolute ["p"] (dstOf "/g" n))) =
      [(["p", "A"], ["g", "src", "main", "jniLibs"])] := by decide +kernel
  rw [← e] at hl
  have hs := Step.some (cwd := ["p"]) (unityProjectPath := "/g") (found := [⟨"A", [""]⟩]) _ _ _ _ rfl hl
  have := h _ _ _ _ _ _ hs ["g", "src", "main", "jniLibs", "other.so"] (by
    intro s hs n hn hne
    rw [List.mem_singleton.1 hs] at hn
    rw [List.mem_singleton.1 hn] at hne
    exact absurd comps_empty hne)
  revert this
  decide +kernel

/-! ## C124: stopped and run again -/

/-- What the disk can be after any number of runs, each stopped anywhere or completed. -/
inductive AfterRuns (cwd : Path) (u : String) (found : List Settings) (t : Tree) : Tree → Prop
  | start : AfterRuns cwd u found t t
  | run (t1 t2 : Tree) (b : Bool) : AfterRuns cwd u found t t1 → Step cwd u found t1 t2 b → AfterRuns cwd u found t t2

/-- **C124.** If the step can complete, then it can after any number of runs that were stopped anywhere, and the disk is then
exactly as if nothing had happened. -/
theorem C124_run_again {cwd : Path} {u : String} {found : List Settings} {t t0 : Tree}
    (hp : ∀ s ∈ found, ∀ n ∈ s.androidLibNames, Proper n) (hN : ∀ s ∈ found, NoneInside s.androidLibNames)
    (hA : ∀ s ∈ found, Apart t (libPath cwd u) (pluginsPath cwd s) s.androidLibNames) (h0 : Step cwd u found t t0 true)
    {t1 : Tree} (h1 : AfterRuns cwd u found t t1) :
    Step cwd u found t1 t0 true ∧ ∀ t2 : Tree, Step cwd u found t1 t2 true → t2 = t0 := by
  obtain ⟨s, rfl, hR⟩ := (C122_completes_iff cwd u found t hp hN hA).1 ⟨t0, h0⟩
  have hp1 := hp s (by simp)
  have hN1 := hN s (by simp)
  have hA1 := hA s (by simp)
  have hfr : ∀ q : Path, (∀ n ∈ s.androidLibNames, ¬ libPath cwd u ++ comps n <+: q) → t1 q = t q := by
    intro q hq
    induction h1 with
    | start => rfl
    | run t1 t2 b _ hs ih =>
      rw [← ih]
      exact C123_only_listed_partial hs hp q fun s' hs' n hn => by rw [List.mem_singleton.1 hs'] at hn; exact hq n hn
  have hout : ∀ q : Path, ¬ libPath cwd u <+: q → t1 q = t q := fun q hq => hfr q fun n _ h => hq (lib_of h)
  have hcon : ∀ n ∈ s.androidLibNames, ∀ r : Path,
      content t1 (pluginsPath cwd s ++ comps n ++ r) = content t (pluginsPath cwd s ++ comps n ++ r) := hA1 t1 hout
  have hA2 : Apart t1 (libPath cwd u) (pluginsPath cwd s) s.androidLibNames := by
    intro t' ht' n hn r
    rw [hcon n hn r]
    exact hA1 t' (fun q hq => (ht' q hq).trans (hout q hq)) n hn r
  have hR2 : ∀ n ∈ s.androidLibNames, Ready t1 (libPath cwd u) (pluginsPath cwd s) n := by
    intro n hn
    obtain ⟨r1, r2⟩ := hR n hn
    refine ⟨?_, ?_⟩
    · have := hcon n hn []
      rw [List.append_nil] at this
      rw [this]; exact r1
    · rw [hfr _ fun m hm h => ?_]
      · exact r2
      · have h2 : libPath cwd u ++ comps m <+: libPath cwd u ++ comps n := h.trans (List.dropLast_prefix _)
        have h3 := hN1 m hm n hn ((List.prefix_append_right_inj _).1 h2)
        have h4 := h.length_le
        rw [h3, List.length_dropLast] at h4
        have := List.length_pos_iff.2 (show libPath cwd u ++ comps n ≠ [] by simp [(hp1 n hn).1])
        omega
  have hfin : ∀ {ta tb : Tree}, Apart ta (libPath cwd u) (pluginsPath cwd s) s.androidLibNames → Step cwd u [s] ta tb true →
      Final ta (libPath cwd u) (pluginsPath cwd s) s.androidLibNames tb := by
    intro ta tb hAa hs
    cases hs with
    | some s' _ _ _ hs' hl =>
      injection hs' with hs'; subst hs'
      rw [paths_proper cwd u s hp1] at hl
      have := loop_completed hAa s.androidLibNames [] (fun _ h => h) (.nil ta _ _) hl
      rwa [List.nil_append] at this
  have hback : ∀ {t2 : Tree}, Final t1 (libPath cwd u) (pluginsPath cwd s) s.androidLibNames t2 →
      Final t (libPath cwd u) (pluginsPath cwd s) s.androidLibNames t2 := by
    intro t2 hF
    exact ⟨fun n hn r => (hF.1 n hn r).trans (hcon n hn r), fun q hq => (hF.2 q hq).trans (hfr q hq)⟩
  have huniq : ∀ t2 : Tree, Step cwd u [s] t1 t2 true → t2 = t0 :=
    fun t2 h2 => (hback (hfin hA2 h2)).unique (hfin hA1 h0)
  obtain ⟨t2, h2⟩ := (C122_completes_iff cwd u [s] t1 hp hN (fun s' hs' => by rw [List.mem_singleton.1 hs']; exact hA2)).2
    ⟨s, rfl, hR2⟩
  exact ⟨by rw [← huniq t2 h2]; exact h2, huniq⟩

/-! ## C125: what is shipped -/

/-- The plugin named `n` is a link that leads to the library the build script puts in place for the platform `p`. -/
def LeadsTo (cwd : Path) (s : Settings) (t : Tree) (d : Build.Disk) (n : String) (p : Build.Triple) : Prop :=
  content t (pluginsPath cwd s ++ comps n) = (d (.lib p)).map .file

/-- Claim C125: after the build script and then the Android step completed, the libraries in the Android project were made from
the sources. -/
def ShipsLibraries : Prop :=
  ∀ (arm : Bool) (d : Build.Disk), Build.Reach arm d → ∀ (f : Build.Flags) (src : Nat) (w : Nat → Build.Fate),
    (Build.run arm f src w d).2 = true → ∀ (cwd : Path) (u : String) (s : Settings) (t t' : Tree),
    (∀ n ∈ s.androidLibNames, Proper n) → Apart t (libPath cwd u) (pluginsPath cwd s) s.androidLibNames →
    t [] = some .dir → Step cwd u [s] t t' true → ∀ (n : String) (p : Build.Triple), n ∈ s.androidLibNames →
    p = .android64 ∨ p = .android32 → LeadsTo cwd s t (Build.run arm f src w d).1 n p →
    t' (libPath cwd u ++ comps n) = some (.file (.made src))

/-- **C125, partial.** Whatever the build script left is shipped: with the option for Android, libraries made from the sources;
without it, what was there before, or the empty placeholder, and neither the script nor the step notices. -/
theorem C125_shipped_partial {arm : Bool} {f : Build.Flags} {src : Nat} {w : Nat → Build.Fate} {d : Build.Disk}
    (hc : (Build.run arm f src w d).2 = true) {cwd : Path} {u : String} {s : Settings} {t t' : Tree}
    (hp : ∀ n ∈ s.androidLibNames, Proper n) (hA : Apart t (libPath cwd u) (pluginsPath cwd s) s.androidLibNames)
    (hroot : t [] = some .dir) (h : Step cwd u [s] t t' true) {n : String} {p : Build.Triple} (hn : n ∈ s.androidLibNames)
    (hpp : p = .android64 ∨ p = .android32) (hl : LeadsTo cwd s t (Build.run arm f src w d).1 n p) :
    (f.android = true → t' (libPath cwd u ++ comps n) = some (.file (.made src))) ∧
    (f.android = false → ∀ c, d (.lib p) = some c → t' (libPath cwd u ++ comps n) = some (.file c)) ∧
    (f.android = false → d (.lib p) = none → t' (libPath cwd u ++ comps n) = some (.file .empty)) := by
  obtain ⟨s', hs', h1, _⟩ := C122_links_replaced h (fun s' h' => by rw [List.mem_singleton.1 h']; exact hp)
    (fun s' h' => by rw [List.mem_singleton.1 h']; exact hA) hroot
  injection hs' with hs' _; subst hs'
  obtain ⟨⟨x, e1, e2, _⟩, _⟩ := h1 n hn
  unfold LeadsTo at hl
  rw [e2] at hl
  have hx : t' (libPath cwd u ++ comps n) = ((Build.run arm f src w d).1 (.lib p)).map .file := by rw [e1, hl]
  obtain ⟨_, _, _, _, c5, _, c7⟩ := C118_completed arm f src w d hc
  have hhost : p ≠ Build.hostTriple arm := by rcases hpp with rfl | rfl <;> cases arm <;> decide
  have hkeep : f.android = false → ∀ c, d (.lib p) = some c → (Build.run arm f src w d).1 (.lib p) = some c := by
    intro ha c hd
    rw [c7 p hhost (by rcases hpp with rfl | rfl <;> intro e <;> cases e) (fun _ => ha)
      (by rcases hpp with rfl | rfl <;> intro e <;> cases e) (by rw [hd]; rfl), hd]
  refine ⟨fun ha => ?_, fun ha c hd => ?_, fun ha hd => ?_⟩
  · rw [hx]
    rcases hpp with rfl | rfl
    · rw [(c5 ha).1]; rfl
    · rw [(c5 ha).2]; rfl
  · rw [hx, hkeep ha c hd]; rfl
  · have hw : (Build.run arm f src w d).1 (.lib p) = none ∨ (Build.run arm f src w d).1 (.lib p) = some .empty := by
      refine blank_run (fun e he => ?_) hd
      have hm := zip_mem he
      revert hm
      generalize e.1 = c
      clear hc hl hx c5 c7 hkeep
      revert c
      rcases f with ⟨a, i, l, r, w⟩
      simp only at ha
      subst ha
      rcases hpp with rfl | rfl <;> cases arm <;> cases l <;> cases i <;> cases r <;> cases w <;> decide
    rcases hw with hw | hw
    · rw [hw] at hl; cases hl
    · rw [hx, hw]; rfl

/-! ## A project -/

theorem scan_path {t : Tree} {rest done q : Path} (h : scan t done rest = .at q) : q = done ++ rest := by
  induction rest generalizing done with
  | nil => unfold scan at h; cases h; simp
  | cons c rest ih =>
    unfold scan at h
    split at h
    · cases h
    · cases h
    · rw [ih h]; simp

theorem scan_link {t : Tree} {rest done target more : Path} (h : scan t done rest = .link target more) :
    ∃ q, q <+: done ++ rest ∧ q ≠ [] ∧ t q = some (.link target) := by
  induction rest generalizing done with
  | nil => unfold scan at h; cases h
  | cons c rest ih =>
    unfold scan at h
    split at h
    · cases h
    · rename_i tg hx
      injection h with h1 h2; subst h1
      exact ⟨done ++ [c], ⟨rest, by simp⟩, by simp, hx⟩
    · obtain ⟨q, h1, h2, h3⟩ := ih h
      exact ⟨q, by simpa using h1, h2, h3⟩

theorem head_prefix {q p : Path} (h : q <+: p) (hq : q ≠ []) : q.head? = p.head? := by
  obtain ⟨r, rfl⟩ := h
  cases q with
  | nil => exact absurd rfl hq
  | cons a q => rfl

theorem scan_agree {t t' : Tree} {a : String} (h : ∀ q : Path, q.head? ≠ some a → t' q = t q) {rest done : Path}
    (hd : (done ++ rest).head? ≠ some a) : scan t' done rest = scan t done rest := by
  induction rest generalizing done with
  | nil => rfl
  | cons c rest ih =>
    have e : t' (done ++ [c]) = t (done ++ [c]) :=
      h _ (by rw [head_prefix (p := done ++ c :: rest) ⟨rest, by simp⟩ (by simp)]; exact hd)
    unfold scan
    rw [e, ih (by simpa using hd)]

/-- If the plugins and all links are in other places than the Gradle project, they do not depend on it. -/
theorem apart_of {t : Tree} {a : String} {lib plugins : Path} {names : List String} (hl : lib.head? = some a) (hlne : plugins ≠ [])
    (hp : plugins.head? ≠ some a)
    (hlinks : ∀ (q target : Path), q.head? ≠ some a → t q = some (.link target) → target ≠ [] ∧ target.head? ≠ some a) :
    Apart t lib plugins names := by
  intro t' ht n hn r
  have hag : ∀ q : Path, q.head? ≠ some a → t' q = t q := by
    intro q hq
    refine ht q fun hpre => hq ?_
    have hne : lib ≠ [] := by rintro rfl; cases hl
    rw [← head_prefix hpre hne, hl]
  have key : ∀ (k : Nat) (p : Path), p.head? ≠ some a → real t' k p = real t k p ∧
      ∀ q : Path, real t k p = some q → q.head? ≠ some a := by
    intro k
    induction k with
    | zero =>
      intro p hp
      have e := scan_agree hag (done := []) (rest := p) hp
      unfold real
      rw [e]
      refine ⟨rfl, fun q hq => ?_⟩
      split at hq
      · rename_i hs; injection hq with hq; subst hq; rw [scan_path hs]; exact hp
      · cases hq
    | succ k ih =>
      intro p hp
      have e := scan_agree hag (done := []) (rest := p) hp
      unfold real
      rw [e]
      cases hs : scan t [] p with
      | «at» q =>
        refine ⟨rfl, fun q' hq => ?_⟩
        injection hq with hq; subst hq; rw [scan_path hs]; exact hp
      | missing => exact ⟨rfl, fun q hq => by cases hq⟩
      | link target more =>
        obtain ⟨q, h1, h2, h3⟩ := scan_link hs
        obtain ⟨l1, l2⟩ := hlinks q target (by rw [head_prefix h1 h2]; exact hp) h3
        exact ih (target ++ more) (by rw [← head_prefix (List.prefix_append target more) l1]; exact l2)
  have hp' : (plugins ++ comps n ++ r).head? ≠ some a := by
    rw [List.append_assoc, ← head_prefix (List.prefix_append plugins _) hlne]; exact hp
  obtain ⟨k1, k2⟩ := key maxLinks _ hp'
  unfold content
  rw [k1]
  cases hq : real t maxLinks (plugins ++ comps n ++ r) with
  | none => rfl
  | some q => exact hag q (k2 q hq)

theorem unity_lib : libPath ["p"] "/g" = ["g", "src", "main", "jniLibs"] := by decide +kernel
theorem unity_plugins : pluginsPath ["p"] unitySettings = ["p", "A"] := by decide +kernel
theorem unity_a64 : comps "arm64-v8a/lib.so" = ["arm64-v8a", "lib.so"] := by decide +kernel
theorem unity_a32 : comps "armeabi-v7a/lib.so" = ["armeabi-v7a", "lib.so"] := by decide +kernel

theorem unity_apart : Apart unityDisk (libPath ["p"] "/g") (pluginsPath ["p"] unitySettings) unitySettings.androidLibNames := by
  rw [unity_lib, unity_plugins]
  refine apart_of (a := "g") rfl (by simp) (by decide) ?_
  intro q target _ h
  unfold unityDisk diskOf at h
  rw [Option.map_eq_some_iff] at h
  obtain ⟨e, h1, h2⟩ := h
  have hm := List.mem_of_find?_eq_some h1
  have hall : ∀ e ∈ unityFiles, (match e.2 with
      | .link tg => decide (tg ≠ [] ∧ tg.head? ≠ some "g")
      | _ => true) = true := by decide +kernel
  have := hall e hm
  rw [h2] at this
  simpa using this

theorem unity_proper : ∀ n ∈ unitySettings.androidLibNames, Proper n := by
  intro n hn
  simp only [unitySettings, List.mem_cons, List.not_mem_nil, or_false] at hn
  rcases hn with rfl | rfl
  · unfold Proper; rw [unity_a64]; decide
  · unfold Proper; rw [unity_a32]; decide

theorem unity_apartness : NoneInside unitySettings.androidLibNames := by
  intro m hm n hn h
  simp only [unitySettings, List.mem_cons, List.not_mem_nil, or_false] at hm hn
  rcases hm with rfl | rfl <;> rcases hn with rfl | rfl
  · rfl
  · rw [unity_a64, unity_a32] at h; revert h; decide
  · rw [unity_a64, unity_a32] at h; revert h; decide
  · rfl

theorem unity_completes : ∃ t', Step ["p"] "/g" [unitySettings] unityDisk t' true := by
  refine (C122_completes_iff ["p"] "/g" [unitySettings] unityDisk (fun s hs => ?_) (fun s hs => ?_) (fun s hs => ?_)).2
    ⟨unitySettings, rfl, ?_⟩
  · rw [List.mem_singleton.1 hs]; exact unity_proper
  · rw [List.mem_singleton.1 hs]; exact unity_apartness
  · rw [List.mem_singleton.1 hs]; exact unity_apart
  · intro n hn
    simp only [unitySettings, List.mem_cons, List.not_mem_nil, or_false] at hn
    unfold Ready
    rw [unity_lib, unity_plugins]
    rcases hn with rfl | rfl
    · rw [unity_a64]; decide +kernel
    · rw [unity_a32]; decide +kernel

/-- The step completes on the project: the two links become files, one of them empty; the other library is kept. -/
example : ∃ t', Step ["p"] "/g" [unitySettings] unityDisk t' true ∧
    t' ["g", "src", "main", "jniLibs", "arm64-v8a", "lib.so"] = some (.file (.made 1)) ∧
    t' ["g", "src", "main", "jniLibs", "armeabi-v7a", "lib.so"] = some (.file .empty) ∧
    t' ["g", "src", "main", "jniLibs", "other.so"] = some (.file .other) := by
  obtain ⟨t', h⟩ := unity_completes
  obtain ⟨s, hs, h1, h2⟩ := C122_links_replaced h (fun s hs => by rw [List.mem_singleton.1 hs]; exact unity_proper)
    (fun s hs => by rw [List.mem_singleton.1 hs]; exact unity_apart) (by decide +kernel)
  injection hs with hs _; subst hs
  refine ⟨t', h, ?_, ?_, ?_⟩
  · have := (h1 "arm64-v8a/lib.so" (by simp [unitySettings])).2 []
    rw [unity_lib, unity_plugins, unity_a64] at this
    exact this.trans (by decide +kernel)
  · have := (h1 "armeabi-v7a/lib.so" (by simp [unitySettings])).2 []
    rw [unity_lib, unity_plugins, unity_a32] at this
    exact this.trans (by decide +kernel)
  · refine (h2 _ fun n hn => ?_).trans (by decide +kernel)
    simp only [unitySettings, List.mem_cons, List.not_mem_nil, or_false] at hn
    rw [unity_lib]
    rcases hn with rfl | rfl
    · rw [unity_a64]; decide
    · rw [unity_a32]; decide

/-- Stopped after deleting the first link, and run again. -/
example : ∃ t1 t0, Step ["p"] "/g" [unitySettings] unityDisk t1 false ∧
    t1 ["g", "src", "main", "jniLibs", "arm64-v8a", "lib.so"] = none ∧ Step ["p"] "/g" [unitySettings] unityDisk t0 true ∧
    Step ["p"] "/g" [unitySettings] t1 t0 true := by
  obtain ⟨t0, h0⟩ := unity_completes
  have h1 : Step ["p"] "/g" [unitySettings] unityDisk
      (delete unityDisk ["g", "src", "main", "jniLibs", "arm64-v8a", "lib.so"]) false := by
    refine .some unitySettings _ _ _ rfl ?_
    rw [paths_proper ["p"] "/g" unitySettings unity_proper]
    refine .stopped _ _ _ _ _ fun q hq => ?_
    rw [unity_lib, unity_a64] at hq
    exact if_neg hq
  refine ⟨_, t0, h1, by decide +kernel, h0, ?_⟩
  exact (C124_run_again (fun s hs => by rw [List.mem_singleton.1 hs]; exact unity_proper)
    (fun s hs => by rw [List.mem_singleton.1 hs]; exact unity_apartness)
    (fun s hs => by rw [List.mem_singleton.1 hs]; exact unity_apart) h0 (.run _ _ _ .start h1)).1

/-- **C125, refuted.** Without the option for Android the build script completes and leaves an empty file where the library is
expected; the Android step completes too and ships it. -/
theorem C125_negation : ¬ ShipsLibraries := by
  intro h
  obtain ⟨t', h'⟩ := unity_completes
  have hl : LeadsTo ["p"] unitySettings unityDisk (Build.run true withW 1 smooth checkout).1 "armeabi-v7a/lib.so" .android32 := by
    unfold LeadsTo
    rw [unity_plugins, unity_a32]
    decide +kernel
  have hc : (Build.run true withW 1 smooth checkout).2 = true := by decide +kernel
  have h1 := h true checkout (.fresh _ checkout_fresh) withW 1 smooth hc ["p"] "/g" unitySettings unityDisk t' unity_proper
    unity_apart (by decide +kernel) h' "armeabi-v7a/lib.so" .android32 (by simp [unitySettings]) (.inr rfl) hl
  have h2 := (C125_shipped_partial hc unity_proper unity_apart (by decide +kernel) h' (n := "armeabi-v7a/lib.so")
    (by simp [unitySettings]) (.inr rfl) hl).2.2 rfl rfl
  rw [h1] at h2
  cases h2

end Verif.Props
