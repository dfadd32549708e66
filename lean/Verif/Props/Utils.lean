import Verif.Proofs.Utils

/-!
# C62, C63, C67, C86, C87, C88: directories, commands, groups, imports and signatures
-/

namespace CrowdDynamics

open Spec

open Classical

/-! ## The working directory -/

/-- **C62** Whatever the body does and however it ends, the working directory afterwards is the one
before, as long as that directory was not removed; the outcome is that of the body, run in the new
directory, or an `OSError` if the new directory cannot be entered. -/
theorem C62_restores {P D α : Type} (resolve : P → D → P) (directory : D) (body : OsAction P α)
    (w : OsState P) (h0 : w.isDir w.cwd)
    (h1 : w.isDir (resolve w.cwd directory) →
      (body { w with cwd := resolve w.cwd directory }).2.isDir w.cwd) :
    (rememberCwd resolve directory body w).2.cwd = w.cwd ∧
    (w.isDir (resolve w.cwd directory) →
      (rememberCwd resolve directory body w).1 =
        (body { w with cwd := resolve w.cwd directory }).1 ∧
      (rememberCwd resolve directory body w).2.isDir =
        (body { w with cwd := resolve w.cwd directory }).2.isDir) ∧
    (¬ w.isDir (resolve w.cwd directory) →
      rememberCwd resolve directory body w = (.error .os, w)) := by
  rw [rememberCwd_ok resolve directory body w h0 h1]
  by_cases h : w.isDir (resolve w.cwd directory)
  · rw [if_pos h]
    exact ⟨rfl, fun _ => ⟨rfl, rfl⟩, fun h' => absurd h h'⟩
  · rw [if_neg h]
    exact ⟨rfl, fun h' => absurd h' h, fun _ => rfl⟩

/-- From directory 1, enter directory 2; the body goes on to directory 3 and raises. -/
example : rememberCwd (fun _ d => d) 2 (fun w => (.error .value, { w with cwd := 3 }))
    (⟨1, fun p => p < 5⟩ : OsState ℕ) = ((.error .value : Except PyErr Unit), ⟨1, fun p => p < 5⟩) := by
  obtain ⟨h1, h2, -⟩ := C62_restores (α := Unit) (fun _ d => d) 2
    (fun w => (.error .value, { w with cwd := 3 })) (⟨1, fun p => p < 5⟩ : OsState ℕ)
    (by norm_num) (fun _ => by norm_num)
  obtain ⟨h3, h4⟩ := h2 (by norm_num)
  refine Prod.ext h3 ?_
  generalize rememberCwd (α := Unit) (fun _ d => d) 2
    (fun w => (.error .value, { w with cwd := 3 })) (⟨1, fun p => p < 5⟩ : OsState ℕ) = r at *
  obtain ⟨r1, rc, ri⟩ := r
  simp_all

/-- **C62** (nested) Nested uses, where the inner directories may be relative to the outer ones,
restore the directory as well, at any depth: the body runs in the innermost directory, and if one of
them cannot be entered, the body does not run. The body may create directories but removes none. -/
theorem C62_nested {P D α : Type} (resolve : P → D → P) (directories : List D)
    (body : OsAction P α) (hkeep : ∀ w p, w.isDir p → (body w).2.isDir p) (w : OsState P)
    (h0 : w.isDir w.cwd) (hne : directories ≠ []) :
    (rememberAll resolve directories body w).2.cwd = w.cwd ∧
    (∀ p, enter resolve w.isDir w.cwd directories = some p →
      (rememberAll resolve directories body w).1 = (body { w with cwd := p }).1) ∧
    (enter resolve w.isDir w.cwd directories = none →
      rememberAll resolve directories body w = (.error .os, w)) := by
  rw [rememberAll_ok resolve directories body hkeep w h0]
  cases h : enter resolve w.isDir w.cwd directories with
  | none => exact ⟨rfl, fun p hp => by simp at hp, fun _ => rfl⟩
  | some p =>
    refine ⟨by simp only [if_neg hne], fun p' hp' => ?_, fun h' => by simp at h'⟩
    obtain rfl := Option.some.inj hp'
    rfl

/-- Two steps down, `..` (here: `0`) back up to where we were, and an exception there. -/
example : (rememberAll (fun p d => if d = 0 then p.tail else d :: p) [1, 2, 0]
    (fun w => ((.error .key : Except PyErr Unit), { w with cwd := [] })) (⟨[7], fun _ => True⟩ : OsState (List ℕ))).2.cwd =
      [7] ∧ (rememberAll (fun p d => if d = 0 then p.tail else d :: p) [1, 2, 0]
    (fun w => (.ok w.cwd, { w with cwd := [] })) (⟨[7], fun _ => True⟩ : OsState (List ℕ))).1 =
      .ok [1, 7] := by
  refine ⟨(C62_nested (α := Unit) _ _ _ (fun _ _ h => h) _ trivial (by simp)).1, ?_⟩
  rw [(C62_nested (α := List ℕ) _ _ _ (fun _ _ h => h) _ trivial (by simp)).2.1 [1, 7]
    (by simp [enter])]

/-- **C62** (removed directory) If the body removes the original directory, leaving the `with`
statement raises an `OSError`, also if the body ended normally or with another exception, and the
process stays where the body left it: this is the only way not to get back. -/
theorem C62_gone {P D α : Type} (resolve : P → D → P) (directory : D) (body : OsAction P α)
    (w : OsState P) (h0 : w.isDir w.cwd) (h : w.isDir (resolve w.cwd directory))
    (h1 : ¬ (body { w with cwd := resolve w.cwd directory }).2.isDir w.cwd) :
    rememberCwd resolve directory body w =
      (.error .os, (body { w with cwd := resolve w.cwd directory }).2) := by
  unfold rememberCwd osGetcwd
  rw [if_pos h0]
  simp only [osChdir, if_pos h, if_neg h1]

/-- The body removes directory 1 and ends normally. -/
example : rememberCwd (fun _ d => d) 2 (fun w => (.ok (), { w with isDir := fun p => p = 2 }))
    (⟨1, fun p => p < 5⟩ : OsState ℕ) = (.error .os, ⟨2, fun p => p = 2⟩) :=
  C62_gone _ _ _ _ (by norm_num) (by norm_num) (by norm_num)

/-- **C62** (no start) If the current directory does not exist any more, nothing is run. -/
theorem C62_no_start {P D α : Type} (resolve : P → D → P) (directory : D) (body : OsAction P α)
    (w : OsState P) (h0 : ¬ w.isDir w.cwd) :
    rememberCwd resolve directory body w = (.error .os, w) := by
  unfold rememberCwd osGetcwd
  rw [if_neg h0]

example : rememberCwd (fun _ d => d) 2 (fun w => (.ok (), { w with cwd := 3 }))
    (⟨1, fun p => p = 2⟩ : OsState ℕ) = (.error .os, ⟨1, fun p => p = 2⟩) :=
  C62_no_start _ _ _ _ (by norm_num)

/-! ## Commands -/

/-- **C63**, full statement: after the commands were made, the command of each class runs that
class. -/
def C63_statement : Prop :=
  ∀ (C T O : Type) (ownTraits : C → List (Text × T)) (toOption : Text → T → Except PyErr O)
    (sims : List (Text × C)), (sims.map Prod.fst).Nodup → ∀ s s' : CliState C O,
    simulationCommands ownTraits toOption sims s = (.ok (), s') →
    ∀ e ∈ sims, invokeCommand s' e.1 = .ok e.2

/-- **C63** (partial, exact) The command of a class works if and only if the class has no options of
its own and is the last one. Missing: all other cases, where the statement is false. -/
theorem C63_exact_partial {C T O : Type} (ownTraits : C → List (Text × T))
    (toOption : Text → T → Except PyErr O) (sims : List (Text × C))
    (hn : (sims.map Prod.fst).Nodup) (s s' : CliState C O)
    (h : simulationCommands ownTraits toOption sims s = (.ok (), s')) (e : Text × C)
    (he : e ∈ sims) :
    invokeCommand s' e.1 = .ok e.2 ↔
      ownTraits e.2 = [] ∧ ∃ l, sims.getLast? = some l ∧ l.2 = e.2 := by
  obtain ⟨h1, h2, -⟩ := simulationCommands_ok ownTraits toOption sims hn s s' h
  obtain ⟨o, ho, hlen⟩ := h2 e he
  obtain ⟨l, hl⟩ : ∃ l, sims.getLast? = some l :=
    ⟨_, List.getLast?_eq_getLast_of_ne_nil (List.ne_nil_of_mem he)⟩
  have hc : s'.cell = some l.2 := by rw [h1, hl]
  unfold invokeCommand
  rw [ho]
  simp only [hc]
  have ho' : o = [] ↔ ownTraits e.2 = [] := by
    rw [← List.length_eq_zero_iff, hlen, List.length_eq_zero_iff]
  by_cases hz : o = []
  · rw [if_pos hz]
    constructor
    · intro hh
      exact ⟨ho'.1 hz, l, hl, Except.ok.inj hh⟩
    · rintro ⟨-, l', hl', hh⟩
      rw [hl] at hl'
      rw [Option.some.inj hl', hh]
  · rw [if_neg hz]
    constructor
    · intro hh
      simp at hh
    · rintro ⟨hh, -⟩
      exact absurd (ho'.2 hh) hz

/-- One class without options: its command runs it. -/
example : invokeCommand (simulationCommands (fun _ : ℕ => ([] : List (Text × Unit)))
    (fun _ _ => (.ok () : Except PyErr Unit)) [(['A'], 3)] ⟨none, []⟩).2 ['A'] = .ok 3 := by
  have h : simulationCommands (fun _ : ℕ => ([] : List (Text × Unit)))
    (fun _ _ => (.ok () : Except PyErr Unit)) [(['A'], 3)] ⟨none, []⟩ =
      (.ok (), ⟨some 3, [(['A'], [])]⟩) := rfl
  rw [h]
  exact (C63_exact_partial _ _ [(['A'], 3)] (by simp) _ _ h (['A'], 3) (by simp)).2
    ⟨rfl, _, rfl, rfl⟩

/-- **C63** (fails, wrong class) The command of a class without options runs the *last* class that
was found, since the callbacks share one variable. -/
theorem C63_last_fails {C T O : Type} (ownTraits : C → List (Text × T))
    (toOption : Text → T → Except PyErr O) (sims : List (Text × C))
    (hn : (sims.map Prod.fst).Nodup) (s s' : CliState C O)
    (h : simulationCommands ownTraits toOption sims s = (.ok (), s')) (e l : Text × C)
    (he : e ∈ sims) (hl : sims.getLast? = some l) (ht : ownTraits e.2 = []) :
    invokeCommand s' e.1 = .ok l.2 := by
  obtain ⟨h1, h2, -⟩ := simulationCommands_ok ownTraits toOption sims hn s s' h
  obtain ⟨o, ho, hlen⟩ := h2 e he
  have hc : s'.cell = some l.2 := by rw [h1, hl]
  unfold invokeCommand
  rw [ho]
  have hz : o = [] := by
    rw [← List.length_eq_zero_iff, hlen, ht]
    rfl
  simp only [hc, if_pos hz]

/-- Two classes 3 and 4: the command `A` of class 3 runs class 4. -/
example : invokeCommand (simulationCommands (fun _ : ℕ => ([] : List (Text × Unit)))
    (fun _ _ => (.ok () : Except PyErr Unit)) [(['A'], 3), (['B'], 4)] ⟨none, []⟩).2 ['A'] =
      .ok 4 := by
  have h : simulationCommands (fun _ : ℕ => ([] : List (Text × Unit)))
    (fun _ _ => (.ok () : Except PyErr Unit)) [(['A'], 3), (['B'], 4)] ⟨none, []⟩ =
      (.ok (), ⟨some 4, [(['A'], []), (['B'], [])]⟩) := by
    simp [simulationCommands, appendOptions, odSet]
  rw [h]
  exact C63_last_fails _ _ [(['A'], 3), (['B'], 4)] (by simp) _ _ h (['A'], 3) (['B'], 4) (by simp)
    rfl rfl

/-- **C63** (fails, options) The command of a class with options of its own always raises a
`TypeError`, since the callback takes no arguments. -/
theorem C63_options_fails {C T O : Type} (ownTraits : C → List (Text × T))
    (toOption : Text → T → Except PyErr O) (sims : List (Text × C))
    (hn : (sims.map Prod.fst).Nodup) (s s' : CliState C O)
    (h : simulationCommands ownTraits toOption sims s = (.ok (), s')) (e : Text × C)
    (he : e ∈ sims) (ht : ownTraits e.2 ≠ []) : invokeCommand s' e.1 = .error .type := by
  obtain ⟨-, h2, -⟩ := simulationCommands_ok ownTraits toOption sims hn s s' h
  obtain ⟨o, ho, hlen⟩ := h2 e he
  unfold invokeCommand
  rw [ho]
  have hz : o ≠ [] := fun hz => ht (by rw [← List.length_eq_zero_iff, ← hlen, hz]; rfl)
  simp only [if_neg hz]

/-- A class with a single option. -/
example : invokeCommand (simulationCommands (fun _ : ℕ => [(['s'], ())])
    (fun _ _ => (.ok () : Except PyErr Unit)) [(['A'], 3)] ⟨none, []⟩).2 ['A'] = .error .type := by
  have h : simulationCommands (fun _ : ℕ => [(['s'], ())])
    (fun _ _ => (.ok () : Except PyErr Unit)) [(['A'], 3)] ⟨none, []⟩ =
      (.ok (), ⟨some 3, [(['A'], [()])]⟩) := rfl
  rw [h]
  exact C63_options_fails _ _ [(['A'], 3)] (by simp) _ _ h (['A'], 3) (by simp) (by simp)

/-- **C63** (fails) The full statement is false: with two classes without options, the command of the
first runs the second. -/
theorem C63_fails : ¬ C63_statement := by
  intro H
  have h : simulationCommands (fun _ : ℕ => ([] : List (Text × Unit)))
    (fun _ _ => (.ok () : Except PyErr Unit)) [(['A'], 3), (['B'], 4)] ⟨none, []⟩ =
      (.ok (), ⟨some 4, [(['A'], []), (['B'], [])]⟩) := by
    simp [simulationCommands, appendOptions, odSet]
  have h1 := H ℕ Unit Unit _ _ _ (by simp) _ _ h (['A'], 3) (by simp)
  have h2 := C63_last_fails _ _ [(['A'], 3), (['B'], 4)] (by simp) _ _ h (['A'], 3) (['B'], 4)
    (by simp) rfl rfl
  rw [h1] at h2
  simp at h2

/-! ## The number of runs -/

/-- **C88**, full statement: `run --num n command` runs the simulation `n` times. -/
def C88_statement : Prop :=
  ∀ (C O : Type) (s : CliState C O) (name : Text) (c : C), invokeCommand s name = .ok c →
    ∀ n : ℕ, invokeChain s n [name] = .ok (List.replicate n c)

/-- **C88** (partial) Every named command runs its class once, in order, if all of them work.
Missing: numbers of runs other than one, for which the statement is false. -/
theorem C88_once_partial {C O : Type} (s : CliState C O) (names : List Text) (cs : List C)
    (hl : names.length = cs.length)
    (h : ∀ e ∈ names.zip cs, invokeCommand s e.1 = .ok e.2) :
    invokeChain s 1 names = .ok cs := by
  induction names generalizing cs with
  | nil =>
    cases cs with
    | nil => rfl
    | cons c cs => simp at hl
  | cons name names ih =>
    cases cs with
    | nil => simp at hl
    | cons c cs =>
      have h1 := h (name, c) (by simp)
      have h2 := ih cs (by simpa using hl) fun e he => h e (by simp [he])
      simp only [invokeChain, bind, Except.bind, h1, h2]

/-- One command, named twice, runs twice. -/
example : invokeChain (⟨some 3, [(['A'], [])]⟩ : CliState ℕ Unit) 1 [['A'], ['A']] = .ok [3, 3] :=
  C88_once_partial _ [['A'], ['A']] [3, 3] rfl (by simp [invokeCommand])

/-- **C88** (fails) The number of runs is ignored: a working command always runs exactly once, so the
statement is false. -/
theorem C88_fails :
    (∀ (C O : Type) (s : CliState C O) (name : Text) (c : C), invokeCommand s name = .ok c →
      ∀ n : ℤ, invokeChain s n [name] = .ok [c]) ∧ ¬ C88_statement := by
  have h : ∀ (C O : Type) (s : CliState C O) (name : Text) (c : C), invokeCommand s name = .ok c →
      ∀ n : ℤ, invokeChain s n [name] = .ok [c] := by
    intro C O s name c hc n
    simp only [invokeChain, bind, Except.bind, hc]
  refine ⟨h, fun H => ?_⟩
  have hc : invokeCommand (⟨some 3, [(['A'], [])]⟩ : CliState ℕ Unit) ['A'] = .ok 3 := by
    simp [invokeCommand]
  have h1 := H ℕ Unit _ _ _ hc 2
  rw [h ℕ Unit _ _ _ hc] at h1
  simp at h1

example : invokeChain (⟨some 3, [(['A'], [])]⟩ : CliState ℕ Unit) 10 [['A']] = .ok [3] :=
  C88_fails.1 _ _ _ _ _ (by simp [invokeCommand]) 10

/-! ## Groups -/

/-- **C67**, full statement: with a generator that has enough usable items, the `i`-th member is made
from the `i`-th item and there are `size` members; with a collection or a callable there are `size`
members as well. -/
def C67_statement : Prop :=
  ∀ (A M : Type) (make : A → Except PyErr M) (size : ℕ),
    (∀ items : ℕ → Option A, Usable make items 0 size →
      ∃ g, newGroup make size (.generator items) = (.ok (), g) ∧
        InOrder make items size g.members) ∧
    (∀ items : List A, (∀ a ∈ items, ∃ m, make a = .ok m) →
      ∃ g, newGroup make size (.collection items) = (.ok (), g) ∧ g.members.length = size) ∧
    (∀ call : ℕ → A, (∀ k, ∃ m, make (call k) = .ok m) →
      ∃ g, newGroup make size (.callable call) = (.ok (), g) ∧ g.members.length = size)

/-- **C67** (fails, order) A generator with at least `3 * size` usable items: construction uses up
three rounds of items and the members are made from the third, so member `i` gets item
`2 * size + i`. -/
theorem C67_generator_fails {A M : Type} (make : A → Except PyErr M) (size : ℕ) (hs : 0 < size)
    (items : ℕ → Option A) (h : Usable make items 0 (3 * size)) :
    ∃ g, newGroup make size (.generator items) = (.ok (), g) ∧ g.calls = 3 * size ∧
      InOrder make (fun i => items (2 * size + i)) size g.members := by
  have hz : (size : ℤ) ≠ 0 := by omega
  have hp : (0 : ℤ) < size := by omega
  obtain ⟨draw, hdraw⟩ : ∃ d, nextItem items = d := ⟨_, rfl⟩
  have hd : ∀ k < 3 * size, ∃ a m, draw k = .ok a ∧ make a = .ok m ∧ items k = some a := by
    intro k hk
    obtain ⟨a, m, h1, h2⟩ := h k hk
    rw [Nat.zero_add] at h1
    exact ⟨a, m, by rw [← hdraw]; simp only [nextItem, h1], h2, h1⟩
  have step : ∀ c, c + size ≤ 3 * size → _ := fun c hc =>
    makeDrawn_ok make draw size c fun i hi => by
      obtain ⟨a, m, h1, h2, -⟩ := hd (c + i) (by omega)
      exact ⟨a, m, h1, h2⟩
  obtain ⟨m1, a1, -, -⟩ := step 0 (by omega)
  obtain ⟨m2, a2, -, -⟩ := step (0 + size) (by omega)
  obtain ⟨m3, a3, b3, c3⟩ := step (0 + size + size) (by omega)
  refine ⟨⟨some make, size, some (.generator items), m3, 0 + size + size + size⟩, ?_, by
    show 0 + size + size + size = _; omega, b3, fun i hi => ?_⟩
  · unfold newGroup
    rw [if_neg hz]
    simp only [observeTimes, observeMembers, if_pos hp, hdraw, Int.toNat_natCast, a1, a2, a3]
  · obtain ⟨a, m, h1, h2, h3⟩ := c3 i hi
    obtain ⟨a', m', h1', h2', h4⟩ := hd (0 + size + size + i) (by omega)
    rw [h1] at h1'
    obtain rfl := Except.ok.inj h1'
    refine ⟨a, m, ?_, h2, h3⟩
    show items (2 * size + i) = some a
    rw [show 2 * size + i = 0 + size + size + i by omega, h4]

/-- The numbers 0, 1, 2, …: a group of two gets 4 and 5. -/
example : ∃ g, newGroup (fun a : ℕ => (.ok a : Except PyErr ℕ)) 2 (.generator some) = (.ok (), g) ∧
    g.members = [4, 5] := by
  obtain ⟨g, h1, -, h2, h3⟩ := C67_generator_fails (fun a : ℕ => (.ok a : Except PyErr ℕ)) 2
    (by norm_num) some (fun i _ => ⟨_, _, rfl, rfl⟩)
  refine ⟨g, h1, ?_⟩
  obtain ⟨_, _, e1, e2, e3⟩ := h3 0 (by norm_num)
  obtain ⟨_, _, e4, e5, e6⟩ := h3 1 (by norm_num)
  obtain rfl := Option.some.inj e1
  obtain rfl := Option.some.inj e4
  obtain rfl := Except.ok.inj e2
  obtain rfl := Except.ok.inj e5
  match hm : g.members, h2 with
  | [x, y], _ =>
    rw [hm] at e3 e6
    simp only [List.getElem?_cons_zero, List.getElem?_cons_succ, Option.some.injEq] at e3 e6
    rw [e3, e6]

/-- **C67** (fails, exhausted) A generator with exactly `size` (or up to `3 * size - 1`) items: the
construction raises `StopIteration`. -/
theorem C67_exhausted_fails {A M : Type} (make : A → Except PyErr M) (size k : ℕ)
    (hk : size ≤ k) (hk' : k < 3 * size) (items : ℕ → Option A) (h : Usable make items 0 k)
    (hend : items k = none) :
    (newGroup make size (.generator items)).1 = .error .stopIteration := by
  have hz : (size : ℤ) ≠ 0 := by omega
  have hp : (0 : ℤ) < size := by omega
  obtain ⟨draw, hdraw⟩ : ∃ d, nextItem items = d := ⟨_, rfl⟩
  have hd : ∀ j < k, ∃ a m, draw j = .ok a ∧ make a = .ok m := by
    intro j hj
    obtain ⟨a, m, h1, h2⟩ := h j hj
    rw [Nat.zero_add] at h1
    exact ⟨a, m, by rw [← hdraw]; simp only [nextItem, h1], h2⟩
  have hstop : draw k = .error .stopIteration := by rw [← hdraw]; simp only [nextItem, hend]
  have step : ∀ c, c + size ≤ k → _ := fun c hc =>
    makeDrawn_ok make draw size c fun i hi => hd (c + i) (by omega)
  have stop : ∀ c, c ≤ k → k < c + size → makeDrawn make draw size c = (.error .stopIteration, k) :=
    fun c hc hc' => by
      have := makeDrawn_stop make draw size c (k - c) .stopIteration (by omega)
        (fun i hi => hd (c + i) (by omega)) (by rw [show c + (k - c) = k by omega]; exact hstop)
      rw [this, show c + (k - c) = k by omega]
  obtain ⟨m1, a1, -, -⟩ := step 0 (by omega)
  unfold newGroup
  rw [if_neg hz]
  by_cases h2 : k < 0 + size + size
  · have a2 := stop (0 + size) (by omega) h2
    simp only [observeTimes, observeMembers, if_pos hp, hdraw, Int.toNat_natCast, a1, a2]
  · obtain ⟨m2, a2, -, -⟩ := step (0 + size) (by omega)
    have a3 := stop (0 + size + size) (by omega) (by omega)
    simp only [observeTimes, observeMembers, if_pos hp, hdraw, Int.toNat_natCast, a1, a2, a3]

/-- A generator of one item cannot fill a group of size one. -/
example : (newGroup (fun a : ℕ => (.ok a : Except PyErr ℕ)) (1 : ℕ)
    (.generator fun i => if i < 1 then some i else none)).1 = .error .stopIteration :=
  C67_exhausted_fails _ 1 1 le_rfl (by norm_num) _
    (fun i hi => ⟨i, i, by simp; omega, rfl⟩) (by simp)

/-- **C67** (partial, collection) A collection of exactly `size` items: member `i` is made from
item `i`. Missing: collections of other lengths, for which the number of members is not the size,
and generators. -/
theorem C67_collection_partial {A M : Type} (make : A → Except PyErr M) (items : List A)
    (h : ∀ a ∈ items, ∃ m, make a = .ok m) :
    ∃ g, newGroup make items.length (.collection items) = (.ok (), g) ∧
      InOrder make (fun i => items[i]?) items.length g.members := by
  by_cases hz : items = []
  · subst hz
    refine ⟨⟨some make, 0, some (.collection []), [], 0⟩, ?_, rfl, fun i hi => absurd hi (by simp)⟩
    simp [newGroup, observeTimes, observeMembers]
  · have hpos : 0 < items.length := List.length_pos_iff.2 hz
    obtain ⟨ms, e1, e2, e3⟩ := makeAll_ok make items h
    refine ⟨⟨some make, items.length, some (.collection items), ms, 0⟩, ?_, e2, fun i hi => ?_⟩
    · unfold newGroup
      rw [if_neg (by omega)]
      simp only [observeTimes, observeMembers, if_pos (show (0 : ℤ) < items.length by omega), e1]
    · obtain ⟨m, h1, h2⟩ := e3 i items[i] (List.getElem?_eq_getElem hi)
      exact ⟨items[i], m, List.getElem?_eq_getElem hi, h1, h2⟩

example : ∃ g, newGroup (fun a : ℕ => (.ok a : Except PyErr ℕ)) ([7, 8] : List ℕ).length
    (.collection [7, 8]) = (.ok (), g) ∧
    InOrder (fun a : ℕ => (.ok a : Except PyErr ℕ)) (fun i => [7, 8][i]?) 2 g.members :=
  C67_collection_partial _ [7, 8] fun a _ => ⟨a, rfl⟩

/-- **C67** (partial, callable) With a callable there are always `size` members, made from the calls
number `2 * size`, …, `3 * size - 1`; so if the callable returns the same each time, all members are
made from that. Missing: generators. -/
theorem C67_callable_partial {A M : Type} (make : A → Except PyErr M) (size : ℕ) (hs : 0 < size)
    (call : ℕ → A) (h : ∀ k, ∃ m, make (call k) = .ok m) :
    ∃ g, newGroup make size (.callable call) = (.ok (), g) ∧
      InOrder make (fun i => some (call (2 * size + i))) size g.members := by
  have hz : (size : ℤ) ≠ 0 := by omega
  have hp : (0 : ℤ) < size := by omega
  have step : ∀ c, _ := fun c =>
    makeDrawn_ok make (fun k => .ok (call k)) size c fun i _ => by
      obtain ⟨m, hm⟩ := h (c + i)
      exact ⟨_, m, rfl, hm⟩
  obtain ⟨m1, a1, -, -⟩ := step 0
  obtain ⟨m2, a2, -, -⟩ := step (0 + size)
  obtain ⟨m3, a3, b3, c3⟩ := step (0 + size + size)
  refine ⟨⟨some make, size, some (.callable call), m3, 0 + size + size + size⟩, ?_, b3,
    fun i hi => ?_⟩
  · unfold newGroup
    rw [if_neg hz]
    simp only [observeTimes, observeMembers, if_pos hp, Int.toNat_natCast, a1, a2, a3]
  · obtain ⟨a, m, h1, h2, h3⟩ := c3 i hi
    have h4 : call (0 + size + size + i) = a := Except.ok.inj h1
    refine ⟨a, m, ?_, h2, h3⟩
    show some (call (2 * size + i)) = some a
    rw [show 2 * size + i = 0 + size + size + i by omega, h4]

example : ∃ g, newGroup (fun a : ℕ => (.ok a : Except PyErr ℕ)) (3 : ℕ)
    (.callable fun _ => 5) = (.ok (), g) ∧
    InOrder (fun a : ℕ => (.ok a : Except PyErr ℕ)) (fun _ => some 5) 3 g.members :=
  C67_callable_partial _ 3 (by norm_num) (fun _ => 5) fun _ => ⟨5, rfl⟩

/-- **C67** (partial) Setting the size of a group: the old size changes nothing; a new positive size
makes that many members, from the next items of a generator or the next values of a callable, and
replaces all members; a size that is not positive leaves the members. -/
theorem C67_resize_partial {A M : Type} (g : AgentGroup A M) (make : A → Except PyErr M)
    (hm : g.agentType = some make) :
    setGroupSize g.size g = (.ok (), g) ∧
    (∀ size : ℤ, size ≤ 0 → size ≠ g.size → setGroupSize size g = (.ok (), { g with size := size })) ∧
    (∀ items, g.attributes = some (.generator items) → ∀ size : ℕ, 0 < size →
      (size : ℤ) ≠ g.size → Usable make items g.calls size →
      ∃ g', setGroupSize size g = (.ok (), g') ∧ g'.size = size ∧ g'.calls = g.calls + size ∧
        InOrder make (fun i => items (g.calls + i)) size g'.members) ∧
    ∀ call, g.attributes = some (.callable call) → ∀ size : ℕ, 0 < size →
      (size : ℤ) ≠ g.size → (∀ i < size, ∃ m, make (call (g.calls + i)) = .ok m) →
      ∃ g', setGroupSize size g = (.ok (), g') ∧ g'.size = size ∧ g'.calls = g.calls + size ∧
        InOrder make (fun i => some (call (g.calls + i))) size g'.members := by
  refine ⟨if_pos rfl, fun size h hne => ?_, fun items ha size hp hne hu => ?_,
    fun call ha size hp hne hu => ?_⟩
  · refine (if_neg hne).trans ?_
    unfold observeMembers
    exact if_neg (by simpa using h)
  · obtain ⟨ms, e, hl, hi⟩ := makeDrawn_ok make (nextItem items) size g.calls fun i hi => by
      obtain ⟨a, m, h1, h2⟩ := hu i hi
      exact ⟨a, m, by simp [nextItem, h1], h2⟩
    have hp' : (0 : ℤ) < (size : ℤ) := by exact_mod_cast hp
    refine ⟨{ g with size := size, members := ms, calls := g.calls + size }, ?_, rfl, rfl, hl,
      fun i h => ?_⟩
    · refine (if_neg hne).trans ?_
      simp only [observeMembers, if_pos hp', ha, hm, Int.toNat_natCast, e]
    · obtain ⟨a, m, h1, h2, h3⟩ := hi i h
      refine ⟨a, m, ?_, h2, h3⟩
      unfold nextItem at h1
      split at h1
      · rename_i b hb
        exact hb.trans (congrArg some (Except.ok.inj h1))
      · cases h1
  · obtain ⟨ms, e, hl, hi⟩ := makeDrawn_ok make (fun k => .ok (call k)) size g.calls fun i hi => by
      obtain ⟨m, h2⟩ := hu i hi
      exact ⟨_, m, rfl, h2⟩
    have hp' : (0 : ℤ) < (size : ℤ) := by exact_mod_cast hp
    refine ⟨{ g with size := size, members := ms, calls := g.calls + size }, ?_, rfl, rfl, hl,
      fun i h => ?_⟩
    · refine (if_neg hne).trans ?_
      simp only [observeMembers, if_pos hp', ha, hm, Int.toNat_natCast, e]
    · obtain ⟨a, m, h1, h2, h3⟩ := hi i h
      exact ⟨a, m, congrArg some (Except.ok.inj h1), h2, h3⟩

/-- A group of two that becomes a group of three. -/
example : ∃ g', setGroupSize 3 (⟨some fun a : ℕ => .ok a, 2, some (.callable fun k => k), [4, 5], 6⟩ :
      AgentGroup ℕ ℕ) = (.ok (), g') ∧ InOrder (fun a : ℕ => (.ok a : Except PyErr ℕ))
      (fun i => some (6 + i)) 3 g'.members := by
  obtain ⟨g', h1, -, -, h2⟩ := (C67_resize_partial (⟨some fun a : ℕ => .ok a, 2,
    some (.callable fun k => k), [4, 5], 6⟩ : AgentGroup ℕ ℕ) _ rfl).2.2.2 (fun k => k) rfl 3
    (by norm_num) (by norm_num) fun i _ => ⟨6 + i, rfl⟩
  exact ⟨g', h1, h2⟩

/-- **C67** (partial) If the item for member `k` is refused by the agent type, setting a new size
raises the exception of the agent type; exactly `k + 1` items are used up and the old members
stay, although the size is new. -/
theorem C67_refused_partial {A M : Type} (g : AgentGroup A M) (make : A → Except PyErr M)
    (hm : g.agentType = some make) (items : ℕ → Option A)
    (ha : g.attributes = some (.generator items)) (size k : ℕ) (hk : k < size)
    (hne : (size : ℤ) ≠ g.size) (hu : Usable make items g.calls k) (a : A)
    (hak : items (g.calls + k) = some a) (e : PyErr) (he : make a = .error e) :
    setGroupSize size g =
      (.error e, { g with size := size, calls := g.calls + (k + 1) }) := by
  have hp' : (0 : ℤ) < (size : ℤ) := by omega
  have := makeDrawn_refused make (nextItem items) size g.calls k e hk
    (fun i hi => by
      obtain ⟨a, m, h1, h2⟩ := hu i hi
      exact ⟨a, m, by simp [nextItem, h1], h2⟩) a (by simp [nextItem, hak]) he
  refine (if_neg hne).trans ?_
  simp only [observeMembers, if_pos hp', ha, hm, Int.toNat_natCast, this]

/-- The second item is refused. -/
example : setGroupSize 3 (⟨some fun a : ℕ => if a = 1 then .error .type else .ok a, 0,
      some (.generator some), [], 0⟩ : AgentGroup ℕ ℕ) =
    (.error .type, ⟨some fun a : ℕ => if a = 1 then .error .type else .ok a, 3,
      some (.generator some), [], 2⟩) :=
  C67_refused_partial _ _ rfl some rfl 3 1 (by norm_num) (by norm_num)
    (fun i hi => ⟨i, i, by simp, by
      have : i = 0 := by omega
      subst this; rfl⟩) 1 rfl .type rfl

/-- **C67** (fails, size) A collection of another length: the group has as many members as the
collection has items, not `size` many; and without a size, which is documented as optional for
collections, the group is empty. -/
theorem C67_collection_size_fails {A M : Type} (make : A → Except PyErr M) (items : List A)
    (h : ∀ a ∈ items, ∃ m, make a = .ok m) :
    (∀ size : ℕ, 0 < size → ∃ g, newGroup make size (.collection items) = (.ok (), g) ∧
      g.size = size ∧ g.members.length = items.length) ∧
    ∃ g, newGroup make 0 (.collection items) = (.ok (), g) ∧ g.members = [] := by
  refine ⟨fun size hs => ?_, ⟨some make, 0, some (.collection items), [], 0⟩, ?_, rfl⟩
  · obtain ⟨ms, e1, e2, -⟩ := makeAll_ok make items h
    refine ⟨⟨some make, size, some (.collection items), ms, 0⟩, ?_, rfl, e2⟩
    unfold newGroup
    rw [if_neg (by omega)]
    simp only [observeTimes, observeMembers, if_pos (show (0 : ℤ) < size by omega), e1]
  · simp [newGroup, observeTimes, observeMembers]

/-- Size 5, two items: two members. -/
example : ∃ g, newGroup (fun a : ℕ => (.ok a : Except PyErr ℕ)) (5 : ℕ) (.collection [7, 8]) =
    (.ok (), g) ∧ g.size = (5 : ℕ) ∧ g.members.length = 2 :=
  (C67_collection_size_fails _ [7, 8] fun a _ => ⟨a, rfl⟩).1 5 (by norm_num)

/-- **C67** (fails) The full statement is false: a generator of exactly one usable item cannot even
fill a group of size one. -/
theorem C67_fails : ¬ C67_statement := by
  intro H
  obtain ⟨g, h, -⟩ := (H ℕ ℕ (fun a => .ok a) 1).1 (fun i => if i < 1 then some i else none)
    (fun i hi => ⟨i, i, by simp; omega, rfl⟩)
  have h1 := C67_exhausted_fails (fun a : ℕ => (.ok a : Except PyErr ℕ)) 1 1 le_rfl (by norm_num)
    (fun i => if i < 1 then some i else none) (fun i hi => ⟨i, i, by simp; omega, rfl⟩) (by simp)
  rw [h] at h1
  simp at h1

/-! ## Imports -/

/-- **C86**, full statement: `import_simulations(dir_path)` finds every simulation class that a python
file in the directory binds. -/
def C86_statement : Prop :=
  ∀ (C P : Type) (sub : C → C → Bool) (base : C) (files : P → List (Text × List (Text × PyObj C)))
    (cwd dirPath : P), ((files dirPath).map Prod.fst).Nodup →
    (∀ f ∈ files dirPath, (f.2.map Prod.fst).Nodup) →
    ∃ d, importSimulations sub base files cwd dirPath = .ok d ∧
      ∀ f ∈ files dirPath, IsPythonFile f.1 → ∀ name c, Binds sub base f.2 name c → (name, c) ∈ d

/-- **C86** (partial, exact) For the current directory, the result maps each name to the class that
the last python file with that name binds it to, and contains nothing else; no name occurs twice.
Missing: other directories, and classes with the same name in different files. -/
theorem C86_cwd_partial {C P : Type} (sub : C → C → Bool) (base : C)
    (files : P → List (Text × List (Text × PyObj C))) (cwd : P)
    (hn : ((files cwd).map Prod.fst).Nodup)
    (hf : ∀ f ∈ files cwd, (f.2.map Prod.fst).Nodup) :
    ∃ d, importSimulations sub base files cwd cwd = .ok d ∧ (d.map Prod.fst).Nodup ∧
      ∀ name c, (name, c) ∈ d ↔ LastBinding sub base (files cwd) name c := by
  have hload : ∀ f ∈ files cwd, (files cwd).find? (fun g => decide (g.1 = f.1)) = some f := by
    intro f hm
    generalize files cwd = l at *
    induction l with
    | nil => simp at hm
    | cons g l ih =>
      rw [List.map_cons, List.nodup_cons] at hn
      rw [List.find?_cons]
      rcases List.mem_cons.1 hm with rfl | hm'
      · simp
      · have : g.1 ≠ f.1 := fun e => hn.1 (e ▸ List.mem_map.2 ⟨f, hm', rfl⟩)
        simp only [this, decide_false]
        exact ih hn.2 (fun f' hf' => hf f' (List.mem_cons_of_mem _ hf')) hm'
  obtain ⟨d, h1, h2, h3⟩ := importLoop_ok sub base
    (fun name => match (files cwd).find? fun f => f.1 = name with
      | some f => .ok f.2
      | none => .error .os) (files cwd) (fun f hm => by simp only [hload f hm]) hf [] (by simp)
  refine ⟨d, h1, h2, fun name c => ?_⟩
  rw [h3]
  simp

/-- A file that defines a class 5 derived from the base class 0, which it also imports, and a file
that is not python. -/
example : ∃ d, importSimulations (fun _ c => decide (c = 0)) 0 (fun _ : Unit =>
    [(['a', '.', 'p', 'y'], [(['S'], .cls 5), (['B'], .cls 0), (['x'], .other)]),
      (['b', '.', 't'], [(['S'], .cls 6)])]) () () = .ok d ∧ (['S'], 5) ∈ d ∧
      (['B'], 0) ∉ d ∧ (['S'], 6) ∉ d := by
  obtain ⟨d, h1, -, h2⟩ := C86_cwd_partial (fun _ c => decide (c = 0)) 0 (fun _ : Unit =>
    [(['a', '.', 'p', 'y'], [(['S'], PyObj.cls 5), (['B'], .cls 0), (['x'], .other)]),
      (['b', '.', 't'], [(['S'], .cls 6)])]) () (by simp) (by simp)
  have hb : ¬ IsPythonFile ['b', '.', 't'] := by
    rw [← splitext_py]
    decide +revert
  have ha : IsPythonFile ['a', '.', 'p', 'y'] := ⟨['a'], rfl, 'a', by simp, by decide⟩
  have hS : (['S'], 5) ∈ d := (h2 _ _).2 ⟨[], _, _, rfl, ha, ⟨by simp, by simp, by simp⟩, by
    intro f hf hp
    simp only [List.mem_singleton] at hf
    subst hf
    exact absurd hp hb⟩
  refine ⟨d, h1, hS, fun h => ?_, fun h => ?_⟩
  · obtain ⟨_, _, _, _, _, ⟨_, _, h⟩, _⟩ := (h2 _ _).1 h
    exact h rfl
  · obtain ⟨l, f, r, hl, hp, ⟨hm, _, _⟩, _⟩ := (h2 _ _).1 h
    have hf : f ∈ l ++ f :: r := by simp
    rw [← hl] at hf
    simp only [List.mem_cons, List.not_mem_nil, or_false] at hf
    rcases hf with rfl | rfl
    · simp at hm
    · exact hb hp

/-- **C86** (fails, other directory) Listing a directory that is not the current one: the import of a
python file that the current directory does not contain raises an `OSError`, since the name is not
joined with the directory. -/
theorem C86_other_directory_fails {C P : Type} (sub : C → C → Bool) (base : C)
    (files : P → List (Text × List (Text × PyObj C))) (cwd dirPath : P)
    (f : Text × List (Text × PyObj C)) (after : List (Text × List (Text × PyObj C)))
    (h : files dirPath = f :: after) (hpy : IsPythonFile f.1)
    (hmiss : ∀ g ∈ files cwd, g.1 ≠ f.1) :
    importSimulations sub base files cwd dirPath = .error .os := by
  have hfind : (files cwd).find? (fun g => decide (g.1 = f.1)) = none := by
    rw [List.find?_eq_none]
    intro g hg
    simp [hmiss g hg]
  unfold importSimulations
  rw [h, List.map_cons, importLoop, if_pos ((splitext_py f.1).2 hpy)]
  simp only [bind, Except.bind, hfind]

/-- An empty current directory and a directory with one module. -/
example : importSimulations (fun _ _ : ℕ => true) 0 (fun b : Bool =>
    if b then [(['a', '.', 'p', 'y'], [(['S'], .cls 5)])] else []) false true = .error .os :=
  C86_other_directory_fails _ _ _ _ _ (['a', '.', 'p', 'y'], [(['S'], .cls 5)]) [] rfl
    ⟨['a'], rfl, 'a', by simp, by decide⟩ (by simp)

/-- **C86** (fails) The full statement is false: with two files that bind the same name, only the
class of the last one is found. -/
theorem C86_fails : ¬ C86_statement := by
  intro H
  obtain ⟨files, hfiles⟩ : ∃ fs : Unit → List (Text × List (Text × PyObj ℕ)), fs = fun _ =>
    [(['a', '.', 'p', 'y'], [(['S'], PyObj.cls 5)]), (['b', '.', 'p', 'y'], [(['S'], .cls 6)])] :=
      ⟨_, rfl⟩
  have hn : ((files ()).map Prod.fst).Nodup := by simp [hfiles]
  have hf : ∀ f ∈ files (), (f.2.map Prod.fst).Nodup := by simp [hfiles]
  obtain ⟨d, h1, h2⟩ := H ℕ Unit (fun _ _ => true) 0 files () () hn hf
  obtain ⟨d', h1', h3, -⟩ := C86_cwd_partial (fun _ _ => true) 0 files () hn hf
  rw [h1] at h1'
  obtain rfl := Except.ok.inj h1'
  have ha := h2 (['a', '.', 'p', 'y'], [(['S'], PyObj.cls 5)]) (by simp [hfiles])
    ⟨['a'], rfl, 'a', by simp, by decide⟩ ['S'] 5 ⟨by simp, rfl, by norm_num⟩
  have hb := h2 (['b', '.', 'p', 'y'], [(['S'], PyObj.cls 6)]) (by simp [hfiles])
    ⟨['b'], rfl, 'b', by simp, by decide⟩ ['S'] 6 ⟨by simp, rfl, by norm_num⟩
  have := List.inj_on_of_nodup_map h3 ha hb rfl
  simp at this

/-! ## Signatures -/

/-- **C87**, full statement: a parameter (other than `self`) without default is rejected. -/
def C87_statement : Prop :=
  ∀ (V A : Type) (ps : List (Param V A)),
    (∃ p ∈ ps, p.name ≠ ['s', 'e', 'l', 'f'] ∧ p.default = .empty) →
    parseSignature ps = .error .invalidType

/-- **C87** (partial) If all parameters other than `self` have defaults, these parameters are yielded
in order with their defaults and annotations. Missing: the rejection of the others, which does not
happen. -/
theorem C87_order_partial {V A : Type} (ps : List (Param V A))
    (h : ∀ p ∈ ps, p.name ≠ ['s', 'e', 'l', 'f'] → ∃ v, p.default = .value v) :
    ∃ specs, parseSignature ps = .ok specs ∧
      specs.map (fun s => (s.name, s.default.map ParamDefault.value, s.annotation)) =
        (ps.filter fun p => decide (p.name ≠ ['s', 'e', 'l', 'f'])).map
          fun p => (p.name, some p.default, p.annotation) := by
  induction ps with
  | nil => exact ⟨[], rfl, rfl⟩
  | cons p ps ih =>
    obtain ⟨specs, h1, h2⟩ := ih fun q hq => h q (List.mem_cons_of_mem _ hq)
    by_cases hs : p.name ≠ ['s', 'e', 'l', 'f']
    · obtain ⟨v, hv⟩ := h p List.mem_cons_self hs
      refine ⟨⟨p.name, some v, p.annotation⟩ :: specs, ?_, ?_⟩
      · rw [parseSignature, if_pos hs]
        simp only [bind, Except.bind, mkspec, hv, h1]
      · rw [List.filter_cons, if_pos (by simpa using hs), List.map_cons, List.map_cons, h2, hv]
        rfl
    · refine ⟨specs, ?_, ?_⟩
      · rw [parseSignature, if_neg hs]
        exact h1
      · rw [List.filter_cons, if_neg (by simpa using hs), h2]

/-- `def f(self, a=1, b: int = 2)`. -/
example : ∃ specs, parseSignature [⟨['s', 'e', 'l', 'f'], .empty, none⟩, ⟨['a'], .value 1, none⟩,
    ⟨['b'], .value 2, some ()⟩] = .ok specs ∧ specs.map ArgSpec.name = [['a'], ['b']] := by
  obtain ⟨specs, h1, h2⟩ := C87_order_partial [⟨['s', 'e', 'l', 'f'], .empty, none⟩,
    ⟨['a'], .value 1, none⟩, (⟨['b'], .value 2, some ()⟩ : Param ℕ Unit)] (by simp)
  refine ⟨specs, h1, ?_⟩
  have := congrArg (List.map Prod.fst) h2
  simpa [Function.comp_def] using this

/-- **C87** (fails) A parameter without default is never rejected: as long as no default is a
hand-made instance of the marker class, nothing is raised, and a missing default becomes `None`. -/
theorem C87_fails :
    (∀ (V A : Type) (ps : List (Param V A)), (∀ p ∈ ps, p.default ≠ .emptyInstance) →
      ∃ specs, parseSignature ps = .ok specs ∧
        specs.map (fun s => (s.name, s.default)) =
          (ps.filter fun p => decide (p.name ≠ ['s', 'e', 'l', 'f'])).map
            fun p => (p.name, match p.default with
              | .value v => some v
              | _ => none)) ∧ ¬ C87_statement := by
  have H : ∀ (V A : Type) (ps : List (Param V A)), (∀ p ∈ ps, p.default ≠ .emptyInstance) →
      ∃ specs, parseSignature ps = .ok specs ∧
        specs.map (fun s => (s.name, s.default)) =
          (ps.filter fun p => decide (p.name ≠ ['s', 'e', 'l', 'f'])).map
            fun p => (p.name, match p.default with
              | .value v => some v
              | _ => none) := by
    intro V A ps h
    induction ps with
    | nil => exact ⟨[], rfl, rfl⟩
    | cons p ps ih =>
      obtain ⟨specs, h1, h2⟩ := ih fun q hq => h q (List.mem_cons_of_mem _ hq)
      have hp := h p List.mem_cons_self
      by_cases hs : p.name ≠ ['s', 'e', 'l', 'f']
      · cases hd : p.default with
        | emptyInstance => exact absurd hd hp
        | empty =>
          refine ⟨⟨p.name, none, p.annotation⟩ :: specs, ?_, ?_⟩
          · rw [parseSignature, if_pos hs]
            simp only [bind, Except.bind, mkspec, hd, h1]
          · rw [List.filter_cons, if_pos (by simpa using hs), List.map_cons, List.map_cons, h2, hd]
        | value v =>
          refine ⟨⟨p.name, some v, p.annotation⟩ :: specs, ?_, ?_⟩
          · rw [parseSignature, if_pos hs]
            simp only [bind, Except.bind, mkspec, hd, h1]
          · rw [List.filter_cons, if_pos (by simpa using hs), List.map_cons, List.map_cons, h2, hd]
      · refine ⟨specs, ?_, ?_⟩
        · rw [parseSignature, if_neg hs]
          exact h1
        · rw [List.filter_cons, if_neg (by simpa using hs), h2]
  refine ⟨H, fun hst => ?_⟩
  have h1 := hst ℕ Unit [⟨['a'], .empty, none⟩] ⟨_, List.mem_cons_self, by simp, rfl⟩
  obtain ⟨specs, h2, -⟩ := H ℕ Unit [⟨['a'], .empty, none⟩] (by simp)
  rw [h1] at h2
  simp at h2

/-- `def f(a)`: accepted, with default `None`. -/
example : ∃ specs, parseSignature [(⟨['a'], .empty, none⟩ : Param ℕ Unit)] = .ok specs ∧
    specs.map (fun s => (s.name, s.default)) = [(['a'], none)] :=
  C87_fails.1 ℕ Unit [⟨['a'], .empty, none⟩] (by simp)

end CrowdDynamics
