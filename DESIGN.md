# Formal model of tomthecarrot/constellation in Lean 4

## 1. Layout

    lean/Verif/Model/*.lean    executable model, one file per area; every definition cites /repo file:lines
    lean/Verif/Spec/*.lean     small specifications that do not mention the model's helpers
    lean/Verif/Proofs/*.lean   helper lemmas and invariants
    lean/Verif/Props/*.lean    the property theorems (named Cnn_...), each followed by `example`s that
                               exhibit a concrete, non-trivial case meeting the hypotheses
    properties.jsonl           the English properties
    AXIOMS.md                  the axioms that each claimed theorem depends on (tools/gen_axioms.py)
    MANIFEST.json              property -> theorems, status (generated by tools/gen_manifest.py)
    seeded/                    mutation experiments: mutants*.py (the edits), LOG.jsonl (one line per attempt)
    tools/mutate.py            rebuilds everything that depends on an edited definition, in a scratch copy

## 2. Modelling conventions

* `&mut self` functions return the new value next to the result.
* `Result`/`Option` stay data.  A panic (`expect`, `unwrap`, `assert!`, `todo!`, `unreachable!`,
  arithmetic overflow in debug builds) is the explicit outcome `panic`; the state left behind by the
  panic is kept, so invariants also cover callers that catch the unwind.
* `usize`/`u64` counters that are only incremented (slot numbers, generations) are `Nat`: the model
  has no wrap-around after 2^64 insertions/removals.
* Fixed-width values a user can observe are `BitVec n`; floats are their IEEE-754 bit patterns. That the bit-level comparisons and the set of numbers roundings go to are those of IEEE 754 is proved, not assumed: `Spec/FloatValue` says which number a bit pattern stands for, `Props/FloatValue` proves the correspondence for all patterns.
* A Rust type parameter `T: ITpPropertyStatic` is a value `t : PropType` plus the carrier type
  `t.Carrier`; a type parameter `C: Contract` is a value `C : ContractTy` (id + field lists).
* `HashSet`/`HashMap` iteration order is arbitrary: functions that iterate one take the order as a
  parameter (`HashOrder`), theorems quantify over every order that is a permutation.
* A *history* (`History kind evs b`) is any finite sequence of public calls, failing and panicking
  ones included, with arbitrary arguments (also handles that were never issued); theorems about
  reachable states quantify over all histories.
* A property that the code violates keeps its full English statement: a `Cnn_negation...` theorem
  refutes it (usually on a reachable state), and `Cnn_..._partial` theorems prove the part that holds,
  where possible with an exact condition (iff) for when it does.

## 3. Property by property

| id | modelled | how proved |
|----|----------|-----------|
| C01-C05 | `Model/Arena`: slots, generation counter, free list, growth (generational-arena 0.2.8 behind the wrapper) | representation invariant by induction over operations; refinement to a finite map with fresh keys (`Spec/HandleMap`) |
| C06-C20, C22, C23 | `Model/Baseline`: contracts, objects, typed state/channel arenas, all public mutators, call sequences | reachability invariant by induction over API calls (`Proofs/BaselineInv`); C16, C17, C18, C22, C23 refuted plus exact partial results |
| C21 | `Model/Engine` (Realm, two baselines) | induction over operations |
| C24-C31 | `Model/Engine`: bounded queue, collactions, assertions, `todo!` writes, reversal | induction over action lists / interleavings; C26, C27 refuted plus exact outcomes |
| C32-C36 | `Model/Time`: i32 as `BitVec 32`, i64 product, arithmetic shift, truncation | integer arithmetic; C34-C36 refuted plus exact formulas |
| C37 | `Model/Channel`: `sort_unstable_by` as any function meeting its documented contract (`SortImpl`); f64 order on bit patterns | total preorder on non-NaN patterns; refuted for NaN |
| C38, C39 | `Model/Channel`: tweening with f32 multiplication as exact product followed by any monotone nearest rounding (`F32Round`) | rational arithmetic; C38 refuted in general, partial positive |
| C40-C42 | `Model/Contract`: `prop_iter!` iterator, size_hint, nth | induction over the field list; C41 refuted plus exact condition |
| C43-C46 | `Model/Types`, `Model/FbTypes`: dynamic enums, tags and kinds | case analysis over all (finite) constructors with arbitrary payloads; C46 refuted plus exact exceptions |
| C47 | `Model/Macro`: the `Contract` derive over parsed struct data | induction over the field list |
| C48-C51 | `Model/Flatbuffer` (builder offsets, `BiMap`), `Model/Serializer`; `Spec/RoundTrip` | loop invariants of `serialize` and `finish`, decoded buffer described field by field, simulation between the original and the restored baseline; C51 refuted plus exact condition (`Props/Repeat`): the handle maps keep the last copy of a repeated contract, the slots of earlier copies stay unresolved |
| C52-C56, C60-C62 | `Model/Deserializer` over arbitrary (also malformed) buffers; `Spec/Buffer` | invariant over arbitrary call sequences (register, deserialize_objects, finish); C55 refuted plus partial; C62 as an equivalence (`Props/RestoreIff`): the invariant of a successful run yields every condition, no state is shared by two restored objects |
| C57, C58 | `Model/Wrapper`: C# `OpaqueWrapper` (ownership, Dispose, finalizer, StealInner) | invariant over call histories; C58 refuted plus partial |
| C59 | `Model/Mangle`: `rsharp` name mangling | injectivity under an exact side condition, refuted in general |
| C63, C64 | `Model/Utf`: UTF-8/UTF-16 codecs of std and .NET; RString, RStr, String FFI | induction over code units; C64 refuted plus exact condition |
| C65, C66 | `Model/DynHandle`: `apply_to_state_*`, dynamic handles, Index/IndexMut operators | case analysis, refinement to the typed operations |
| C67-C69 | `Model/CApi`: `ExampleContract`/`BallContract`/circle contract C API, pointer based accessors | composition of the Baseline theorems; C68 refuted plus partial |
| C70 | `Model/CircleGame`: bevy demo systems (spawn, input, update, collisions) | frame invariant over all schedules and all f32 operations |
| C71 | `Model/UnityColor`: colour packing of the Unity demo | bit-level; refuted plus exact |
| C72, C73 | `Model/FfiHeap`: native heap, generated C# API with its parameter modes; `Spec/BorrowRules` | simulation between programs following the borrow rules and the heap; conversely (`Proofs/FfiExact`) a successful vector-free program follows the rules, by an invariant on borrowers whose owner is gone; refuted for arbitrary programs |

Later additions are listed in section 5.

## 4. Trusted base

* Lean 4.33.0 kernel; axioms at most `propext`, `Classical.choice`, `Quot.sound` (each theorem uses a
  subset, listed theorem by theorem in AXIOMS.md; no own axioms, no compiled evaluation: concrete examples use `decide`/`decide +kernel`).
* The reading of /repo recorded in the comments of `Model/*`.
* External components, as documented rather than modelled from source:
  - generational-arena 0.2.8 (modelled from its documented algorithm), typemap, bimap, std collections;
  - crossbeam-channel: bounded FIFO; `sort_unstable_by`: result is a sorted permutation for total orders,
    may panic for others;
  - flatbuffers 22.12.6 and the code flatc 23.1.21 generates from the schemas are not in /repo; builder, verifier and accessors are modelled
    byte by byte after their published source (`Model/FbBytes`, `Model/FbRead`), and that a finished table reads back as written is
    proved (C127), except that a scalar field equal (`==`) to its default 0 is left out and reads back as the default, which only shows
    for a minus zero (`fbF32`, `fbF64`; C126). Trusted: that reading of the source; the order in which flatc writes fields; `Vector::get`
    asserts its bound; the limit of 1,000,000 tables counts as in `FbBaseline.tables`; files are smaller than 2 GiB (the limits on
    depth and on bytes visited, growth of the buffer, and the binary search among vtables are not modelled); overflow of an offset
    computation panics (a build with overflow checks);
  - std and .NET UTF codecs: documented algorithms, including replacement of invalid sequences;
  - C#: shift counts are masked, `int -> ulong` conversion is unchecked sign extension;
  - bash (`set -e` and its exception for commands on the left of `&&`), `mkdir`, `touch`, `mv`, `rsync`; `dotnet` run in a
    directory needs exactly one project file there (C117–C119); `git clone` wants its target absent or empty (C137);
  - f32/f64: multiplication is the exact product rounded by any monotone round-to-nearest (`F32Round`);
    in the circle game f32 arithmetic is an arbitrary function.
* Simplifications: overflow checks are on (debug profile; C92 treats release builds); a panicking deserializer call ends a run;
  `debug_assert`s on the placeholder handle are modelled as "slot still empty"; C# wrappers are used by
  one thread at a time (except in C81); proc macros are modelled by what the emitted tokens denote, over parsed input;
  bevy systems are serialised with spawn-order queries; a native panic at the FFI boundary aborts;
  aliasing is modelled per call (exclusive arguments of one call), not across calls; P/Invoke
  declarations are assumed to have the parameter order of the Rust functions.

Not modelled: byte layout of the C ABI, allocation failure, real threads and blocking
(only the FIFO queue protocol), rendering and physics of the demos, logging, cargo build scripts (client/build_mac_host.sh and the Unity editor's Android step are modelled; Unity's FileUtil is external, its assumed behaviour is in Model/Gradle.lean), tokenisation
and parsing of Rust by `syn`, `Debug`/`Display` output; code that cannot run or is not reachable from the API
(client/serialize/rust/src/deserializer/old.rs, `IAction::into_bytes`, which is `todo!()`); type-level code
(crates/better_borrow); the external CppSharp and handlebars engines; the Unity editor's build preprocessor.

## 5. Later additions

| id | modelled | how proved |
|----|----------|-----------|
| C74, C75 | `Model/TimeFloat`: float accessors of times and scales, every round-to-nearest function | division by a power of two commutes with rounding; relative error bound; C75 refuted for every non-zero time |
| C76 | `Model/Substitute`: the visitor of the `substitute` macro over syntax trees, recursion depth as fuel | mutual structural induction; split/join equals replacing all occurrences; divergence for self-mentioning values |
| C77 | `Spec/Database`: the public calls as updates of plain maps, no arenas, slots or loops | forward simulation (`Proofs/Database`): each arena is described by a map plus issued handles; induction over the history |
| C78 | `Spec/SaveRestore`: one save followed by one restore with everything that is free in it, and chains of those | C48, plus: the history of a restored baseline creates objects only with the types of the calls (`Reach`), `SameContents` is transitive and preserves every condition of C48; induction over the chain |
| C79 | the heap model of C72 | invariant of all programs: a shared wrapper holds an interior, non-writable pointer; the demo's setters as programs: always `sharedWrite` |
| C80 | `Model/Gc`: finalizers run for any wrapper no later instruction uses, between calls and between reading the pointers and entering the native function; `Spec/KeepAlive` | simulation for programs that keep owners alive; for every other one a schedule with a fault; refuted for programs that follow the borrow rules only. Finalizers run one at a time, each as a whole |
| C81 | `Model/WrapperRace`: the reads and the clearing of the pointer in `Dispose` and `StealInner` as separate steps of any number of threads | invariant over all interleavings (never lost); schedules constructed for every number of takers; serial schedules: exactly one. Refuted for overlapping calls |
| C82 | `Model/FfiValue`: what every allocation holds, where every pointer points inside it, what the native functions do with it, on top of the heap model of C72; `Spec/CsObjects`: the same API on plain objects, without pointers | simulation between the heap with contents and the plain objects (`Proofs/FfiValue`), typing invariant (`FfiTyped`, `FfiSound`); readback theorems by splitting runs and tracking one object (`FfiRun`, `FfiReadback`) |
| C83 | as C82 | invariant: no baseline of a disciplined program holds an object, no wrapper holds a state handle (`Proofs/FfiNoState`). Refuted |
| C84 | `Model/Fs`: files and directories, every system call may fail (oracle), a failed write leaves any part of the text; `Model/Codegen`: both generators, what templates render to is arbitrary | relation `Changes` between disks composed over the run; induction over the files for completeness (`Proofs/Codegen`) |
| C85 | `Model/Pinvoke`: the artifact directory as names and contents, the regular expression, `Split('.')[1]`, the copies; strings as lists of characters | invariant over the crates (own libraries unchanged, new files only under the overriding name); refuted for the default name, for paths with a dot, for published builds |
| C86 | `Model/ArenaIter`: slots walked from either end, the counter of items left with its underflow and assertion | the counter equals the number of live entries not yet visited; induction over the calls; uniqueness of the sorted list |
| C87 | reuses `Model/Time`; a hierarchy is a list of warps applied in turn | induction over the list against the exact rational time: each step adds at most one tick to the error, magnified by the scales below it |
| C88 | reuses `Model/Baseline` and `Spec/Database` | induction over the history, one step at a time through the simulation with the database (`Proofs/LastWrite`) |
| C89 | `Model/UnitySync`: the Unity side of a ball, the ten state handles, the synchronizer's ten assignments with the exception of the colour getter, the billboards; events in any order; the C# pointers are left to C72/C79 | simulation with a plain record of ten numbers; refuted: a frame without a colour is copied in part |
| C90 | reuses `Model/Baseline`, `Model/Channel` | from C88 and C37; refuted through `keyframes_mut` |
| C91 | `Model/MutSwap`: any number of baselines, calls and `mem::swap` of `object_mut` references | refuted by one exchange (field lost, `unreachable!` reached, two objects sharing a field); calls cannot see exchanges (erasure by simulation); exchanges only permute records among their homes (invariant); exact effect of one exchange; without exchanges each baseline has an ordinary history |
| C92 | `Model/Profile`: the functions with unchecked integer arithmetic, once per build profile (`overflow-checks` on or off); the debug instances are proved equal to the models used elsewhere | agreement whenever the debug build does not panic (induction over serializer runs); exact release behaviour on the overflowing inputs; refuted by three concrete differences |
| C93 | the `HashOrder` argument of `Model/Baseline.unregisterContract` and of `Model/Serializer.serialize`; `Spec/Rename`: calls and results with object handles renamed | lock-step simulation of two runs (`Proofs/Replay`): the pairs of handles issued so far are a finite partial injection, every permutation extending it relates the two baselines, the free list of the second object arena is the same for all of them, so the handle its next creation issues is known and the injection grows; concrete counterexamples |
| C94 | `Model/ArenaWord`: the arena of `Model/Arena` with the `u64` counter, per build profile | the generation never exceeds the number of removals (induction over the history), so both arenas make the same steps; sharpness by induction over 2^64 - 1 remove/insert rounds on a one-slot arena, generic in the number of rounds; for baselines (`Props/Ledger`): generation plus entries of an arena grows by at most 1 per call |
| C95 | `Model/Clients`: threads with a program of `send`/`try_send` each, the crossbeam channel by its documented contract (waiting, rendezvous for capacity 0, discarding when the receiver is dropped), the engine thread | every event has one of nine shapes (`Proofs/Clients.shape`); order by induction over the schedule; no thread waits for ever: a measure of the work left that every event either leaves, with the channel untouched, or reduces, and a state in which a whole round touches nothing is finished |
| C96 | as C95; a panic of `apply_collaction` drops the engine unless caught | invariant: nothing in flight writes, so `apply` returns the same system; counterexample in which the engine is lost |
| C97 | as C95 with one thread and no engine events until it has sent | induction over the program; for `n` places the queue and the answers together never exceed `n` |
| C98 | `Model/Baseline` (no new code): slots, entries and generations of its arenas over a history | per call each arena is inserted into at most once or only shrinks (`Proofs/Ledger`), so its slots stay within twice the peak; states and channels only grow, by exactly the fields of each creation (negation: one object at a time, `n` states left, induction over the rounds) |
| C99 | `Model/CreateIter`: `object_create` pulling the caller's iterators one `next` at a time, with the number of calls; an iterator is any function from call numbers to item / end / panic, with any size hint | induction over the declared types: only the calls made matter, their number is bounded, and on a list the result is that of `Model/Baseline` |
| C100 | as C99; `Vec::with_capacity` panics above a limit (a parameter below 2^63) | counterexample `std::iter::repeat`; exact condition for a panic by induction over the declared types |
| C101 | `FbBaseline.tables`, `maxTables` (`Model/Flatbuffer`), the check in `Builder.new` (`Model/Deserializer`); `CanWrite`, `savedTables` (`Spec/`) | refuted: for every `n` a reachable baseline with `n` objects (induction), the size of every finished buffer is computed from the serializer's loop invariant; exact threshold |
| C102 | `Des.finish`, `patchRefs`, `restore` (`Model/Deserializer`), `Cycle.run` (`Spec/SaveRestore`), `SameContents` (`Spec/RoundTrip`) | writes to different live handles commute (`modify_comm`, `write_comm`), so the second pass is invariant under permutations (induction on the permutation); the null contract has one object; two `SameContents` from one origin compose through the inverse of the first (closure under references); two restorations of one buffer are matched by table number |
| C103 | `Ser.serialize` (`Model/Serializer`), histories of `Model/Baseline` | case analysis of the loops (`serialize_cases`); what was created stays listed (`trace_listed`, induction over the history); counterexample with one of two objects removed |
| C104 | as C103, with `Des.finish`; `Storable` (`Spec/RoundTrip`) | the round trip of C48 proved under the weaker `Storable`; no handle is listed twice (`LInv`, invariant of histories); counterexample `ghostB` |
| C105 | `Ser.serialize`, `Ser.pushObjects` (`Model/Serializer`) | induction over the object loop (`pushObjects_err`); counterexample evaluated in two hash orders |
| C106 | `Des.deserializeObj` (`Model/Deserializer`), `Cycle.run` (`Spec/SaveRestore`) | invariant of deserializer runs (every restored object has the default warp and no channels), composed with C78; counterexample `warpB` |
| C107 | as C106; `NoChannelObjects`, `ChannelsUnused` (`Spec/`) | the loop invariant of `deserialize_objects` records that an object was only created if its type has no channels; conversely C62 and C48 are proved under the weaker condition; counterexample `demoB` |
| C108 | the deserializer only registers and creates between `new` and `finish`: an invariant principle for the baseline under construction (`Proofs/DesTidy`) | every live state is a field of a live object, through `finish`; with C61 and C12 the fields and states correspond one to one |
| C109 | arenas from which nothing was removed (`Proofs/Packed`): slots fill in order, generation 0 | the set of handles that resolve after a restore, exactly; refuted as stated, also with a handle that silently denotes another object |
| C110 | `intEaseAt` (`Model/Channel`): tweening at any float time, with NaN and infinities as separate cases | rational arithmetic on any monotone nearest rounding; refuted as stated |
| C111 | `Spec/Program`: programs over the calls of `Model/Baseline` in which handles are variables; `Spec/Transparent`: which variable stands for which after a restart, lives with restarts; `Cycle.run` of `Spec/SaveRestore` | a relation of handles (`Proofs/Sim`) under which two baselines have the same contents is kept by every call (`Proofs/SimStep`, `Proofs/SimRun`), saving and restoring establishes it (from C48, C78, C106 and the invariants of reachable baselines), and what is seen is the same; lives by induction, being indistinguishable is transitive and kept by running |
| C112 | `Spec/Commute` (which calls collide, exchange of the returned variables) over the programs of `Spec/Program` | writes and inserts into an arena commute exactly (`Arena.insert_modify`, `modify_comm`), so most pairs leave the same baseline; for two registrations, two creations, a removal with a creation or another removal, after which slots differ, a correspondence of handles between the two outcomes is built (`Proofs/Commute`, `Proofs/CommuteCalls`) and the simulation of C111 applies; permutations of overwriting calls by a fold |
| C113 | `Spec/Shared`: several programs of `Spec/Program`, each with its own variables, scheduled on one baseline; a panic ends its program only | each program keeps a correspondence between the shared baseline and the one it would have alone (`Proofs/Sim*`, restricted to its own contract ids); no handle has a name in two of them; a call changes only what its program has names for, even if it panics (`step_keeps`), new names are of handles never given out before (`Names.Grow`); induction over the schedule (`shared_run`); for a baseline in use (`Spec/Part`) each part corresponds to itself (`part_self`) |
| C114 | as C111, without the condition that all contracts are saved; `IndistinguishableTo` in `Spec/Transparent` limits the program to ids it owns or that are free | the correspondence of C111 restricted to the saved contracts (`restore_part`) and the simulation of C113 (`run_agree_on`) |
| C115 | as C113 and C114: the programs share the original, each has a restored baseline of its own | `restore_part` seen from the restored side (`PairedOn.symm` in `Proofs/Split`), names of separate parts are disjoint (`restoreNames_apart`), then `shared_run` |
| C116 | `Cycle.run` (Spec/SaveRestore): all calls of one save and one restore; `Survives`: the list of conditions, by public readers | sufficiency: `storable_round_trip` (C48); necessity: `SerInv` after successful calls, `restore_needs`, `channel_object_stuck`, `decoded_tables` (the number of tables without any bound on the counts) |
| C117 | `Build.script`, `Build.run`: client/build_mac_host.sh command by command on the files that matter between runs; `Reach`: any runs with a failure or an interruption at any command | refuted under `-w` (the project file keeps its temporary name and nothing renames it back: `C117_negation`); partial: exactly which states can be run again, by an abstract interpretation of the script (`can`) proved sound for every disk, and the invariant that there is one project file |
| C118 | as C117 | a second abstract interpretation (`fresh`: which files are known to be made from the current sources) proved sound for every disk and every failure; untouched files by `unwritten_run` |
| C119 | as C117; a failing `mkdir` on the left of `&&` does not stop a script under `set -e` | refuted by exactly that (`C119_negation`); partial: holds whenever no such `mkdir` fails, by induction over the commands |
| C120 | `RoundTripTest.test` (`Props/RepoTests`): client/serialize/rust/tests/round_trip.rs call by call, as a program on the model | what `create_baseline` leaves by induction over the records (C08–C10), C116 for the save and the restore, then `check_matches_fields` of the restored baseline from `SameContents` and a permutation argument; `==` of records is equality of a key when no float is NaN, and finds nothing otherwise |
| C121 | Deserializer, Flatbuffer; spec Spec/Text.lean counts the bytes of text in a buffer, those its objects refer to, and those a baseline holds | Refuted (negation: every factor below 999,992 is exceeded by a buffer with one string all of whose objects refer to it). Partial: what a restored baseline holds is exactly what the requested objects refer to, each reference counted; at most 999,992 times the longest string, attained; no more than the buffer if no state is shared; saving and restoring keeps the amount. |
| C122 | `Gradle.Step`: ConstellationBuildPreprocessor.cs on a disk of directories, files and symbolic links; paths are split and normalised as strings; Spec/Gradle.lean says what a proper name, a ready library and a source apart from the project are | invariant of the loop over the libraries already done; completion both ways (iff) |
| C123 | `Gradle.Loop` with a stop anywhere, also inside one delete or copy | Refuted (negation: an empty entry deletes other plugins' libraries). Partial: frame for proper names; in general; what exactly an empty entry does. |
| C124 | `AfterRuns`: any number of stopped runs | frame plus the copy's independence of what is at its destination |
| C125 | `Gradle.Step` after `Build.run` | Refuted (negation: the placeholder is shipped). Partial: what is shipped, exactly, in the three cases. |
| C126 | `fbF32`, `fbF64`, `encodeState` (`Model/Serializer`): flatbuffers' `push_slot` skips a value equal to the default; `SameExactly`, `NoMinusZero` (`Spec/RoundTrip`); numbers by `Spec/FloatValue` | Refuted (negation: a minus zero is restored as zero). Partial, exactly: a cycle is bit for bit iff no state is minus zero (from C78 and uniqueness of `Holds`); the restored baseline has none, so later cycles are; every float keeps its number, and its bits unless it is a zero |
| C127 | `Model/FbBytes` (the builder: alignment, strings, vectors, tables with shared vtables, `finish`), `Model/SerBytes` (the serializer writing to it), `Model/FbRead` (verifier and accessors on bytes); `Cycle.save`, `Cycle.load` (`Spec/Bytes`) | the builder writes from the end, so what is written stays at the same distance from the end: `Stored`/`Wrote` invariants (whatever is prepended later, the reader reads the value back), vtables shared correctly, then a step-by-step simulation of the byte-level serializer by the table-level one (`Mirrors`), ending in `root bytes = out.decode`; with C78, C116 |
| C128 | `Model/FbRead`; `CutTo` | every reader is monotone: what it reads from a beginning it reads from the whole (`Proofs/FbMono`); the first string written lies at the end of the file and its terminator is needed, at most three bytes of padding follow it (`Proofs/FbCut`) |
| C129 | `finishWith` (`Model/SerBytes`) with any identifier | Refuted (negation). Partial: the identifier's place is computed from `finish`; files with different identifiers are both simulated by the same tables |
| C130 | as C127; `textBytes`, `fieldCount` (`Spec/Bytes`) | bounds for each `create` function, summed over the loops (`Proofs/SizeBytes`) |
| C131 | as C127 | Refuted (negation: two changed bytes of a concrete saved file). Partial: from C127's reading of bytes, `restore_typed` and C55 |
| C132 | as C127 | no placeholder and no missing name survives in what the writer finishes (`Proofs/Genuine`: `genuine_tables`), so C55's and C62's conditions hold; C128 for beginnings of the file |
| C133 | as C127; `SomeOf` (`Spec/Bytes`), `Closed` (`Spec/Part`) | the tables of a part from the writer's invariant (`tables_of`), C62's exact condition in both directions, contents by the simulation of C48 |
| C134 | `Model/FbAccess`: the unchecked accessors apart from the verifier (`Model/FbRead`); a read outside the buffer is `none` | each accessor agrees with the checked reader of the same table wherever that one accepts (`Proofs/FbAccess`) |
| C135 | as C127, C62; `statesOf` | the objects restored correspond to different entries of the vector of objects (C62), which are in the file; the verifier's limit counts them and their states |
| C136 | as C111, C127; `FileLife` (`Spec/FileLife`) | C128 reduces a cut file to an error or the whole file, C127 a file to the tables, C111 does the rest |
| C137 | `Setup.script`, `Setup.run`: cross_compilation/setup.sh command by command on the clone, its submodules and the image; `Reach`: any runs with a failure or an interruption at any command | refuted by any two runs (`C137_negation`: `git clone` into a directory that is not empty); partial: case analysis over the six commands, one invariant (is the directory free?) |
| C138 | the bytes of `Cycle.save` (C127); `SameSaved` in `Spec/SameFile.lean` says what it is for two lists of contracts to hold the same, without the model's serializer | both files are restored under the same types and orders (C78, C127); the restored baselines are the same one, and two correspondences into one baseline compose to one between the sources (`same_source`); the examples give one file for two baselines with other histories and handles, two files for one baseline, and another file for another label; conversely (`C138_same_files`) a simulation of the serializer byte by byte between the two baselines (`Proofs/SerRename`): the handle maps hold corresponding handles with the same numbers, because fields never share a slot (C12), and every order of the one's sets is matched by an order of the other's |
| C139 | the same; `Chain` (C78) for any number of saves and restores | induction over the chain with C78 and C138: each generation has the contents of the one before and can be saved, so the possible files stay the same set; with C127 what is read from a file can be saved as that file |
| C140 | as C93, C111 (`Spec/Program`, `StandsFor`, `Whole`) and C138; `instancesAt` reads the contract instances out of the program's variables | the simulation of C93/C111 ends in paired baselines; a pairing restricted to the saved contracts is a `SameSaved` (`paired_saved`); C138 then gives the same set of files. If one run's contracts can be saved, the other's can (`paired_savable`: the pairing carries over every condition of `Savable`; that objects were created with the right types follows from `run_history`, since a program can create objects only with instances that it holds, and those are paired) |
| C141 | `Built` (`Spec/Built`): the calls that are allowed, as an inductive set of baselines; `Savable` (C78), `Cycle.save` (C127) | induction: each call keeps `Savable` (`register_savable`, `create_savable`, `write_savable`, …; a registered handle was never used before by `history_not_new`), and the limits at the end hold before since no such call takes a listed object from the saved contracts (`step_grows`, `unregister_others`); the file by C127 |

## 6. The repository's own tests on the model

`Props/RepoTests.lean` transcribes every test of /repo, call by call and assertion by assertion, and the kernel evaluates
them: the arena test, both `test_partialeq`, `test_resolve_time`, the two tween tests (for every round-to-nearest), the
macro, mangling and `substitute` tests, `test_round_trip`, and the C# tests. These are checks of the model against the
authors' expectations, not properties. Where the C# tests cannot pass at this commit (`TestObjectCreate` and the
`BallContract` test reach a native function with the wrong arguments; the test in `StateId.cs` has no `[Fact]` and expects
something untrue) the model says so. `TestVec`, commented out in /repo because it crashed, passes in the model: returning
a structure by value through the bindings is not modelled.
