import Mathlib.Tactic.NormNum
import Verif.Spec.IO
import Verif.Proofs.IO

/-!
# Properties of storing and loading data: C49, C50, C51, C52, C82, C83, C84
-/

namespace CrowdDynamics

open Spec

/-! ## C49 -/

/-- C49, full statement: after a history the files hold, in order, the arrays sent up to the last
dump with their contents at the time of sending. -/
def C49_statement : Prop :=
  ∀ (α : Type) (other : Text → ℕ → Except PyErr Text) (writable : Text → Bool)
    (directory basename : Text) (events : List (NpyEvent α)) (w w' : NpyWorld α) (co : NpyCo),
    Ordinary directory basename → NoBraces directory → NoBraces basename →
    npyRun other writable (npyTemplate directory basename) events npyStart w = (.ok (), co, w') →
    FilesHold w'.disk directory basename co.index (uptoLastDump (sentFrames w.heap events))

/-- **C49** What the files of a history hold: for every dump one file, with the contents of the
arrays at the moment of the dump. -/
theorem C49_at_dump {α : Type} (other : Text → ℕ → Except PyErr Text) (writable : Text → Bool)
    (directory basename : Text) (events : List (NpyEvent α)) (w w' : NpyWorld α) (co : NpyCo)
    (ho : Ordinary directory basename) (hd : NoBraces directory) (hb : NoBraces basename)
    (h : npyRun other writable (npyTemplate directory basename) events npyStart w =
      (.ok (), co, w')) :
    co.index = dumps events ∧
      FilesHold w'.disk directory basename co.index (framesAtDump w.heap [] events) := by
  obtain ⟨parts, h1, h0, h2, _, h4⟩ := npyRun_files (template_path other ho hd hb)
    (npyPath_injective directory basename) events npyStart co w w' h
  have h1' : co.index = parts.length := by rw [h1]; simp [npyStart]
  refine ⟨by rw [h1', h0], parts, h1'.symm, fun i hi => ?_, h4⟩
  have := h2 i hi
  simpa [npyStart] using this

/-- **C49** (partial) The files hold what was sent if no array is changed between being sent and
the next dump. -/
theorem C49_undisturbed_partial {α : Type} (other : Text → ℕ → Except PyErr Text)
    (writable : Text → Bool) (directory basename : Text) (events : List (NpyEvent α))
    (w w' : NpyWorld α) (co : NpyCo) (ho : Ordinary directory basename)
    (hd : NoBraces directory) (hb : NoBraces basename)
    (h : npyRun other writable (npyTemplate directory basename) events npyStart w =
      (.ok (), co, w')) (hu : Undisturbed [] events) :
    FilesHold w'.disk directory basename co.index (uptoLastDump (sentFrames w.heap events)) := by
  have := (C49_at_dump other writable directory basename events w w' co ho hd hb h).2
  rw [framesAtDump_undisturbed events w.heap [] hu] at this
  exact this

/-- **C49** (partial) So they do if every frame is dumped at once, whatever is changed in
between. -/
theorem C49_every_frame_partial {α : Type} (other : Text → ℕ → Except PyErr Text)
    (writable : Text → Bool) (directory basename : Text) (events : List (NpyEvent α))
    (w w' : NpyWorld α) (co : NpyCo) (ho : Ordinary directory basename)
    (hd : NoBraces directory) (hb : NoBraces basename)
    (h : npyRun other writable (npyTemplate directory basename) events npyStart w =
      (.ok (), co, w')) (hall : ∀ ref, NpyEvent.send ref false ∉ events) :
    FilesHold w'.disk directory basename co.index ((sentFrames w.heap events).map Prod.fst) := by
  have hu : ∀ events : List (NpyEvent α), (∀ ref, NpyEvent.send ref false ∉ events) →
      Undisturbed [] events := by
    intro events hall
    induction events with
    | nil => trivial
    | cons e rest ih =>
      have := ih fun ref hm => hall ref (List.mem_cons_of_mem _ hm)
      cases e with
      | update ref rows => exact ⟨by simp, this⟩
      | send ref dump =>
        cases dump with
        | true => exact this
        | false => exact absurd List.mem_cons_self (hall ref)
  have hl : ∀ (events : List (NpyEvent α)) (heap : ℕ → List α),
      (∀ ref, NpyEvent.send ref false ∉ events) →
      uptoLastDump (sentFrames heap events) = (sentFrames heap events).map Prod.fst := by
    intro events
    induction events with
    | nil => intro _ _; rfl
    | cons e rest ih =>
      intro heap hall
      have hr := fun ref hm => hall ref (List.mem_cons_of_mem _ hm)
      cases e with
      | update ref rows => exact ih _ hr
      | send ref dump =>
        cases dump with
        | true => rw [sentFrames, uptoLastDump_cons_true, ih heap hr, List.map_cons]
        | false => exact absurd List.mem_cons_self (hall ref)
  rw [← hl events w.heap hall]
  exact C49_undisturbed_partial other writable directory basename events w w' co ho hd hb h
    (hu events hall)

/-- **C49** An exception leaves the files as the events before the failing dump made them. -/
theorem C49_crash {α : Type} (other : Text → ℕ → Except PyErr Text) (writable : Text → Bool)
    (directory basename : Text) (events : List (NpyEvent α)) (w w' : NpyWorld α) (co : NpyCo)
    (e : PyErr) (ho : Ordinary directory basename) (hd : NoBraces directory)
    (hb : NoBraces basename)
    (h : npyRun other writable (npyTemplate directory basename) events npyStart w =
      (.error e, co, w')) :
    ∃ before ref after, events = before ++ .send ref true :: after ∧
      FilesHold w'.disk directory basename (dumps before) (framesAtDump w.heap [] before) := by
  obtain ⟨b, r, a, he, hr⟩ := npyRun_error events npyStart co w w' e h
  have := C49_at_dump other writable directory basename b w w' co ho hd hb hr
  exact ⟨b, r, a, he, this.1 ▸ this.2⟩

/-- The history of a simulation that updates its array in place before each frame and dumps with
the last frame only. -/
def inPlaceHistory {α : Type} : List (List α) → List (NpyEvent α)
  | [] => []
  | [rows] => [.update 0 rows, .send 0 true]
  | rows :: rest => .update 0 rows :: .send 0 false :: inPlaceHistory rest

/-- **C49** What a simulation stores that saves less often than every frame: one file with copies
of the last frame only; all frames before are lost. -/
theorem C49_copies_of_last {α : Type} (frames : List (List α)) (last : List α)
    (other : Text → ℕ → Except PyErr Text) (writable : Text → Bool)
    (directory basename : Text) (w w' : NpyWorld α) (co : NpyCo)
    (ho : Ordinary directory basename) (hd : NoBraces directory) (hb : NoBraces basename)
    (h : npyRun other writable (npyTemplate directory basename) (inPlaceHistory (frames ++ [last]))
      npyStart w = (.ok (), co, w')) :
    FilesHold w'.disk directory basename 1 (List.replicate (frames.length + 1) last) := by
  have key : ∀ (frames : List (List α)) (heap : ℕ → List α) (k : ℕ),
      dumps (inPlaceHistory (frames ++ [last])) = 1 ∧
      framesAtDump heap (List.replicate k 0) (inPlaceHistory (frames ++ [last])) =
        List.replicate (k + frames.length + 1) last := by
    intro frames
    induction frames with
    | nil =>
      intro heap k
      refine ⟨rfl, ?_⟩
      simp only [List.nil_append, inPlaceHistory, framesAtDump, List.append_nil, List.map_append,
        List.map_replicate, Function.update_self, List.map_cons, List.map_nil, List.length_nil,
        Nat.add_zero]
      rw [List.replicate_succ']
    | cons f frames ih =>
      intro heap k
      obtain ⟨x, xs, hx⟩ : ∃ x xs, frames ++ [last] = x :: xs := by
        cases frames with
        | nil => exact ⟨_, _, rfl⟩
        | cons a l => exact ⟨_, _, rfl⟩
      have e : inPlaceHistory (f :: frames ++ [last]) =
          .update 0 f :: .send 0 false :: inPlaceHistory (frames ++ [last]) := by
        rw [List.cons_append, hx, inPlaceHistory]
        simp
      rw [e]
      refine ⟨(ih heap 0).1, ?_⟩
      rw [framesAtDump, framesAtDump]
      have h2 := (ih (Function.update heap 0 f) (k + 1)).2
      rw [List.replicate_succ'] at h2
      rw [h2]
      congr 1
      simp only [List.length_cons]
      omega
  obtain ⟨h1, h2⟩ := C49_at_dump other writable directory basename _ w w' co ho hd hb h
  have h3 := (key frames w.heap 0).2
  rw [Nat.zero_add, List.replicate_zero] at h3
  rwa [h1, (key frames w.heap 0).1, h3] at h2

lemma ordinary_out : Ordinary "out".toList "agents".toList :=
  ⟨by decide, by decide, by decide⟩

lemma noBraces_out : NoBraces "out".toList ∧ NoBraces "agents".toList :=
  ⟨⟨by decide, by decide⟩, ⟨by decide, by decide⟩⟩

/-- **C49** fails: the simulation sends the same array twice and changes it in between. -/
theorem C49_fails : ¬ C49_statement := by
  intro h
  have hrun : npyRun (fun _ _ => .error .key) (fun _ => true)
      (npyTemplate "out".toList "agents".toList) (inPlaceHistory ([[1]] ++ [[2]])) npyStart
      ⟨fun _ => [], fun _ => none⟩ = (.ok (), ⟨[], 1⟩, ⟨Function.update (Function.update
        (fun _ => ([] : List ℕ)) 0 [1]) 0 [2], Function.update (fun _ => none)
        (npyPath "out".toList "agents".toList 0) (some [[2], [2]])⟩) := by
    simp only [inPlaceHistory, List.cons_append, List.nil_append, npyRun, npySend,
      template_path _ ordinary_out noBraces_out.1 noBraces_out.2]
    rfl
  have h1 := h ℕ _ _ _ _ _ _ _ _ ordinary_out noBraces_out.1 noBraces_out.2 hrun
  have h2 := C49_copies_of_last [[1]] [2] _ _ _ _ _ _ _ ordinary_out noBraces_out.1 noBraces_out.2
    hrun
  obtain ⟨p, lp, hp, fp⟩ := h1
  obtain ⟨q, lq, hq, fq⟩ := h2
  have hpq : p = q := by
    refine List.ext_getElem (by rw [lp, lq]) fun i h1 h2 => ?_
    exact Option.some.inj ((hp i h1).symm.trans (hq i h2))
  have e : uptoLastDump (sentFrames (fun _ => ([] : List ℕ)) (inPlaceHistory ([[1]] ++ [[2]]))) =
      [[1], [2]] := by
    simp [inPlaceHistory, sentFrames, uptoLastDump]
  rw [hpq, fq, e] at fp
  simp at fp

/-- Histories can be undisturbed: two different arrays sent, one changed after the dump. -/
example : Undisturbed ([] : List ℕ)
    [.send 0 false, .send 1 true, .update 0 [3], .send 0 true] := by
  simp [Undisturbed]

/-- A history of three frames that succeeds. -/
example : (npyRun (fun _ _ => .error .key) (fun _ => true)
    (npyTemplate "out".toList "agents".toList) [.send 0 false, .send 1 true, .update 0 [3],
      .send 0 true] npyStart ⟨fun _ => [7], fun _ => none⟩).1 = .ok () := by
  simp only [npyRun, npySend, template_path _ ordinary_out noBraces_out.1 noBraces_out.2]
  rfl

/-! ## C50 -/

/-- C50, full statement: a directory with the files `0, …, k-1` of a basename is read in the order
of the indices. -/
def C50_statement : Prop :=
  ∀ (β : Type) (directory basename : Text) (k : ℕ) (walk : List (Text × List Text))
    (disk : Text → Option β) (content : ℕ → β), Ordinary directory basename →
    OnlyOwnFiles walk directory basename k →
    (∀ i < k, disk (npyPath directory basename i) = some (content i)) →
    loadNpy disk walk basename = .ok ((List.range k).map content)

/-- The indices `0, …, k-1` are all below the digits that occur in the basename. -/
def BelowDigits (basename : Text) (k : ℕ) : Prop :=
  ∀ d < 10, Nat.digitChar d ∈ basename → k ≤ d

/-- **C50** (partial) When exactly the files are read: if no digit smaller than the number of files
occurs in the basename they are read in the right order, otherwise reading raises a
`ValueError`. -/
theorem C50_exactly_partial {β : Type} (directory basename : Text) (k : ℕ)
    (walk : List (Text × List Text)) (disk : Text → Option β) (content : ℕ → β)
    (ho : Ordinary directory basename) (hw : OnlyOwnFiles walk directory basename k)
    (hc : ∀ i < k, disk (npyPath directory basename i) = some (content i)) :
    (BelowDigits basename k → loadNpy disk walk basename = .ok ((List.range k).map content)) ∧
    (¬ BelowDigits basename k → loadNpy disk walk basename = .error .value) := by
  constructor
  · intro hbd
    obtain ⟨values, hv, hs⟩ := find_sorted ho hw (fun i hi => by
      refine index_read basename i fun c hcm hb => ?_
      obtain ⟨d, hd, rfl⟩ := decimal_digits i c (List.mem_of_mem_head? hcm)
      have hk := hbd d hd (digitChar_eq d hd ▸ hb)
      have hi10 : i < 10 := by omega
      have hdec : decimal i = [digitChar i] := by rw [decimal, if_pos hi10]
      rw [hdec] at hcm
      simp only [List.head?_cons, Option.mem_some_iff] at hcm
      have := congrArg digitValue hcm
      rw [digitValue_digitChar i hi10, digitValue_digitChar d hd] at this
      have := Option.some.inj this
      omega)
    unfold loadNpy
    rw [hv]
    simp only [bind, Except.bind]
    rw [hs, mapM_ok _ (fun v => content v.1.toNat) _ fun v hv => ?_, List.map_map]
    · rfl
    · obtain ⟨i, hi, rfl⟩ := List.mem_map.1 hv
      simp [npLoad, hc i (List.mem_range.1 hi)]
  · intro hbd
    unfold BelowDigits at hbd
    push Not at hbd
    obtain ⟨d, hd, hm, hk⟩ := hbd
    classical
    have hmem : (directory, npyName basename d) ∈ allFiles walk ∧
        (basename <+: npyName basename d ∧ ".npy".toList <:+ npyName basename d) := by
      have := hw.mem_iff.2 (List.mem_map.2 ⟨d, List.mem_range.2 hk, rfl⟩)
      have := List.mem_filter.1 this
      exact ⟨this.1, of_decide_eq_true this.2⟩
    have hf : foundFile basename (directory, npyName basename d) = .error .value := by
      unfold foundFile
      simp only
      rw [index_lost basename d hd (digitChar_eq d hd ▸ hm)]
      rfl
    unfold loadNpy
    rw [find_fails basename walk _ hmem.1 hmem.2.1 hmem.2.2 hf]
    rfl

example : BelowDigits "run7".toList 7 ∧ ¬ BelowDigits "run7".toList 8 := by
  refine ⟨fun d hd h => ?_, fun h => absurd (h 7 (by norm_num) (by decide)) (by norm_num)⟩
  interval_cases d <;> first | omega | exact absurd h (by decide)

/-- **C50** (partial) A basename without digits is always right. -/
theorem C50_no_digits_partial {β : Type} (directory basename : Text) (k : ℕ)
    (walk : List (Text × List Text)) (disk : Text → Option β) (content : ℕ → β)
    (ho : Ordinary directory basename) (hw : OnlyOwnFiles walk directory basename k)
    (hc : ∀ i < k, disk (npyPath directory basename i) = some (content i))
    (hd : ∀ d < 10, Nat.digitChar d ∉ basename) :
    loadNpy disk walk basename = .ok ((List.range k).map content) :=
  (C50_exactly_partial directory basename k walk disk content ho hw hc).1
    fun d h hm => absurd hm (hd d h)

lemma onlyOwn_self (directory basename : Text) (k : ℕ) :
    OnlyOwnFiles [(directory, (List.range k).map (npyName basename))] directory basename k := by
  classical
  unfold OnlyOwnFiles allFiles
  simp only [List.flatMap_cons, List.flatMap_nil, List.append_nil, List.map_map]
  rw [List.filter_eq_self.2]
  · exact List.Perm.refl _
  · intro p hp
    obtain ⟨i, _, rfl⟩ := List.mem_map.1 hp
    simp only [decide_eq_true_eq, Function.comp]
    unfold npyName
    refine ⟨⟨_, rfl⟩, ⟨basename ++ '_' :: (toString i).toList, by simp⟩⟩

/-- **C50** fails for the basename `run1` and two files. -/
theorem C50_fails : ¬ C50_statement := by
  intro h
  have ho : Ordinary "out".toList "run1".toList := ⟨by decide, by decide, by decide⟩
  have h1 := h Unit _ _ 2 _ (fun _ => some ()) (fun _ => ()) ho (onlyOwn_self _ _ 2)
    (fun _ _ => rfl)
  rw [(C50_exactly_partial _ _ 2 _ (fun _ => some ()) (fun _ => ()) ho (onlyOwn_self _ _ 2)
    (fun _ _ => rfl)).2 (fun hb => by
      have := hb 1 (by norm_num) (by decide)
      omega)] at h1
  simp at h1

/-- **C50** How the rest of a file name is read as a number: white space around the digits of a
number is ignored, every other character around them, apart from a sign in front, makes the
reading fail with a `ValueError`. -/
theorem C50_whitespace (i : ℕ) :
    (∀ before after : Text, (∀ c ∈ before, c ∈ asciiSpaces) → (∀ c ∈ after, c ∈ asciiSpaces) →
      pyInt (before ++ decimal i ++ after) = .ok (i : ℤ)) ∧
    ∀ c : Char, c ∉ asciiSpaces → ¬ ('0'.toNat ≤ c.toNat ∧ c.toNat ≤ '9'.toNat) →
      pyInt (decimal i ++ [c]) = .error .value ∧
      (c ≠ '-' → c ≠ '+' → pyInt (c :: decimal i) = .error .value) := by
  refine ⟨fun before after hb ha => ?_, fun c hc hd => ?_⟩
  · rw [pyInt_spaces before _ after hb ha fun c h => digit_not_space (decimal_digits i c h),
      pyInt_decimal]
  · exact pyInt_strange i c (by simpa using fun h => hc (mem_of_isSpace h)) hd

example : pyInt "\t 12 \n".toList = .ok 12 := by
  have h := (C50_whitespace 12).1 "\t ".toList " \n".toList (by decide) (by decide)
  have e : decimal 12 = "12".toList := by
    rw [decimal, decimal]
    rfl
  rwa [e] at h

/-- **C50** Files of another basename with the same beginning are read too: `agents2_0.npy` is
taken for number 20 of `agents`. -/
theorem C50_other_basename {β : Type} (disk : Text → Option β) (x y : β)
    (hx : disk "out/agents_0.npy".toList = some x)
    (hy : disk "out/agents2_0.npy".toList = some y) :
    loadNpy disk [("out".toList, ["agents2_0.npy".toList, "agents_0.npy".toList])]
      "agents".toList = .ok [x, y] := by
  have h1 : findNpyFiles "agents".toList
      [("out".toList, ["agents2_0.npy".toList, "agents_0.npy".toList])] =
      .ok [(20, "out/agents2_0.npy".toList), (0, "out/agents_0.npy".toList)] := by rfl
  unfold loadNpy
  rw [h1]
  simp only [bind, Except.bind]
  have h2 : ([(20, "out/agents2_0.npy".toList), (0, "out/agents_0.npy".toList)] :
      List (ℤ × Text)).mergeSort (fun a b => decide (a.1 ≤ b.1)) =
      [(0, "out/agents_0.npy".toList), (20, "out/agents2_0.npy".toList)] := by
    refine List.Perm.eq_of_pairwise (le := fun a b => decide (a.1 ≤ b.1) = true) ?_
      (List.pairwise_mergeSort ?_ ?_ _) ?_ ((List.mergeSort_perm _ _).trans (List.Perm.swap _ _ _))
    · intro a b ha hb h1 h2
      have ha' := (List.mergeSort_perm _ _).mem_iff.1 ha
      simp only [List.mem_cons, List.not_mem_nil, or_false] at ha' hb
      simp only [decide_eq_true_eq] at h1 h2
      rcases ha' with rfl | rfl <;> rcases hb with rfl | rfl
      · exact absurd h1 (by norm_num)
      · rfl
      · rfl
      · exact absurd h2 (by norm_num)
    · intro a b c h1 h2
      simp only [decide_eq_true_eq] at h1 h2 ⊢
      omega
    · intro a b
      simp only [Bool.or_eq_true, decide_eq_true_eq]
      omega
    · simp
  rw [h2, List.mapM_cons, List.mapM_cons]
  simp only [npLoad, hx, hy]
  rfl

/-- The hypotheses are met by a directory that lists the files of `agents`. -/
example : Ordinary "out".toList "agents".toList ∧
    OnlyOwnFiles [("out".toList, (List.range 12).map (npyName "agents".toList))] "out".toList
      "agents".toList 12 ∧ ∀ d < 10, Nat.digitChar d ∉ "agents".toList :=
  ⟨ordinary_out, onlyOwn_self _ _ 12, by decide⟩

/-! ## C82 -/

/-- C82, full statement: data that were concatenated can be loaded again. -/
def C82_statement : Prop :=
  ∀ (α : Type) (path basename : Text) (walk walk' : List (Text × List Text))
    (disk disk' : Text → Option (List (List α))),
    concatNpy path basename walk disk = .ok disk' →
    (allFiles walk').Perm ((path, basename ++ ".npy".toList) :: allFiles walk) →
    ∃ parts, loadNpy disk' walk' basename = .ok parts

/-- **C82** Once `concat_npy` wrote its result, `basename.npy`, next to the numbered files, these can
never be loaded again: the search takes the result for a numbered file without number. -/
theorem C82_never {β : Type} (basename : Text) (walk : List (Text × List Text))
    (disk : Text → Option β) (path : Text)
    (h : (path, basename ++ ".npy".toList) ∈ allFiles walk) :
    loadNpy disk walk basename = .error .value := by
  have hf : foundFile basename (path, basename ++ ".npy".toList) = .error .value := by
    unfold foundFile
    simp only
    rw [index_lost_concat]
    rfl
  unfold loadNpy
  rw [find_fails basename walk _ h ⟨_, rfl⟩ ⟨_, rfl⟩ hf]
  rfl

example := C82_never (β := ℕ) "agents".toList [("out".toList, ["agents.npy".toList])]
  (fun _ => none) "out".toList (by decide)

/-- **C82** fails already for one file of one frame. -/
theorem C82_fails : ¬ C82_statement := by
  intro h
  have hl : loadNpy (fun _ => some [[1]])
      [("out".toList, (List.range 1).map (npyName "agents".toList))] "agents".toList =
      .ok [[[1]]] := (C50_no_digits_partial "out".toList "agents".toList 1 _ _
        (fun _ => [[1]]) ordinary_out (onlyOwn_self _ _ 1) (fun _ _ => rfl) (by decide)).trans rfl
  obtain ⟨disk', hd⟩ : ∃ d, concatNpy "out".toList "agents".toList
      [("out".toList, (List.range 1).map (npyName "agents".toList))] (fun _ => some [[1]]) =
      .ok d := by
    unfold concatNpy loadNpyConcatenated
    simp only [bind, Except.bind]
    rw [hl]
    simp [vstackMatrices]
  obtain ⟨parts, hp⟩ := h ℕ _ _ _ (("out".toList, ["agents".toList ++ ".npy".toList]) ::
    [("out".toList, (List.range 1).map (npyName "agents".toList))]) _ _ hd (by
      exact List.Perm.refl _)
  rw [C82_never "agents".toList _ disk' "out".toList (by simp [allFiles])] at hp
  simp at hp

/-- **C82** (partial) The first concatenation of the files of a basename without digits stores
their rows, in the order of the indices. -/
theorem C82_first_partial {α : Type} (directory basename : Text) (k : ℕ)
    (walk : List (Text × List Text)) (disk : Text → Option (List (List α)))
    (content : ℕ → List (List α)) (ho : Ordinary directory basename)
    (hw : OnlyOwnFiles walk directory basename k)
    (hc : ∀ i < k, disk (npyPath directory basename i) = some (content i))
    (hd : ∀ d < 10, Nat.digitChar d ∉ basename) (hk : 0 < k)
    (hlen : ∀ i < k, ∀ j < k, ∀ a ∈ content i, ∀ b ∈ content j, a.length = b.length) :
    ∃ disk', concatNpy directory basename walk disk = .ok disk' ∧
      disk' (directory ++ '/' :: (basename ++ ".npy".toList)) =
        some ((List.range k).flatMap content) ∧
      ∀ p, p ≠ directory ++ '/' :: (basename ++ ".npy".toList) → disk' p = disk p := by
  have hl := C50_no_digits_partial directory basename k walk disk content ho hw hc hd
  have hv : vstackMatrices ((List.range k).map content) =
      .ok ((List.range k).flatMap content) := by
    cases hm : (List.range k).map content with
    | nil =>
      have := congrArg List.length hm
      simp at this
      omega
    | cons m rest =>
      unfold vstackMatrices
      simp only
      rw [if_pos, ← hm]
      · rfl
      · rw [← hm]
        intro a ha b hb
        obtain ⟨la, hla, ha⟩ := List.mem_flatten.1 ha
        obtain ⟨lb, hlb, hb⟩ := List.mem_flatten.1 hb
        obtain ⟨i, hi, rfl⟩ := List.mem_map.1 hla
        obtain ⟨j, hj, rfl⟩ := List.mem_map.1 hlb
        exact hlen i (List.mem_range.1 hi) j (List.mem_range.1 hj) a ha b hb
  refine ⟨Function.update disk (directory ++ '/' :: (basename ++ ".npy".toList))
      (some ((List.range k).flatMap content)), ?_, ?_, ?_⟩
  · unfold concatNpy loadNpyConcatenated
    simp only [hl, hv, bind, Except.bind]
    rw [pathJoin_own ho _ (by decide)]
  · rw [Function.update_self]
  · intro p hp
    rw [Function.update_of_ne hp]

example := C82_first_partial (α := ℕ) "out".toList "agents".toList 12
  [("out".toList, (List.range 12).map (npyName "agents".toList))] (fun _ => some [[7], [8]])
  (fun _ => [[7], [8]]) ordinary_out (onlyOwn_self _ _ 12) (fun _ _ => rfl) (by decide)
  (by norm_num) (by simp)

/-! ## C83 -/

/-- **C83** What a run saved is what is loaded: if the saved arrays are not changed before they are
dumped, the basename has no digits and the directory has no other files of this name, then loading
all files gives exactly the frames that were sent up to the last dump, in order. -/
theorem C83_roundtrip {α : Type} (other : Text → ℕ → Except PyErr Text) (writable : Text → Bool)
    (directory basename : Text) (events : List (NpyEvent α)) (w w' : NpyWorld α) (co : NpyCo)
    (ho : Ordinary directory basename) (hd : NoBraces directory) (hb : NoBraces basename)
    (hdig : ∀ d < 10, Nat.digitChar d ∉ basename)
    (h : npyRun other writable (npyTemplate directory basename) events npyStart w =
      (.ok (), co, w')) (hu : Undisturbed [] events) (walk : List (Text × List Text))
    (hw : OnlyOwnFiles walk directory basename (dumps events)) :
    ∃ parts, loadNpy w'.disk walk basename = .ok parts ∧
      parts.flatten = uptoLastDump (sentFrames w.heap events) := by
  have h0 := (C49_at_dump other writable directory basename events w w' co ho hd hb h).1
  obtain ⟨parts, hl, hp, hf⟩ :=
    C49_undisturbed_partial other writable directory basename events w w' co ho hd hb h hu
  refine ⟨parts, ?_, hf⟩
  rw [← h0] at hw
  rw [C50_no_digits_partial directory basename co.index walk w'.disk
    (fun i => (parts[i]?).getD []) ho hw (fun i hi => ?_) hdig]
  · congr 1
    refine List.ext_getElem (by simp [hl]) fun i h1 h2 => ?_
    simp [h2]
  · have hi' : i < parts.length := by omega
    rw [hp i hi']
    simp [hi']

/-- All hypotheses can be met at once. -/
example : ∃ (events : List (NpyEvent ℕ)) (w w' : NpyWorld ℕ) (co : NpyCo),
    npyRun (fun _ _ => .error .key) (fun _ => true) (npyTemplate "out".toList "agents".toList)
      events npyStart w = (.ok (), co, w') ∧ Undisturbed [] events ∧
    OnlyOwnFiles [("out".toList, (List.range 2).map (npyName "agents".toList))] "out".toList
      "agents".toList (dumps events) ∧ uptoLastDump (sentFrames w.heap events) = [[7], [7], [3]] := by
  have h : (npyRun (fun _ _ => .error .key) (fun _ => true)
      (npyTemplate "out".toList "agents".toList) [.send 0 false, .send 1 true, .update 0 [3],
        .send 0 true] npyStart (⟨fun _ => [7], fun _ => none⟩ : NpyWorld ℕ)).1 = .ok () := by
    simp only [npyRun, npySend, template_path _ ordinary_out noBraces_out.1 noBraces_out.2]
    rfl
  exact ⟨_, _, _, _, Prod.ext h rfl, by simp [Undisturbed], onlyOwn_self _ _ 2,
    by simp [sentFrames, uptoLastDump]⟩

/-! ## C84 -/

/-- C84, full statement: the files are written in the given directory under the given basename. -/
def C84_statement : Prop :=
  ∀ (α : Type) (other : Text → ℕ → Except PyErr Text) (directory basename : Text)
    (w : NpyWorld α), Ordinary directory basename →
    ∃ co w', npyRun other (fun _ => true) (npyTemplate directory basename) [.send 0 true] npyStart w =
      (.ok (), co, w') ∧ w'.disk (npyPath directory basename 0) = some [w.heap 0]

/-- **C84** (partial) For directories and basenames without braces. -/
theorem C84_no_braces_partial {α : Type} (other : Text → ℕ → Except PyErr Text)
    (directory basename : Text) (w : NpyWorld α) (ho : Ordinary directory basename)
    (hd : NoBraces directory) (hb : NoBraces basename) :
    ∃ co w', npyRun other (fun _ => true) (npyTemplate directory basename) [.send 0 true] npyStart w =
      (.ok (), co, w') ∧ w'.disk (npyPath directory basename 0) = some [w.heap 0] := by
  refine ⟨⟨[], 1⟩, ⟨w.heap, Function.update w.disk (npyPath directory basename 0)
    (some [w.heap 0])⟩, ?_, by simp⟩
  simp only [npyRun, npySend, template_path other ho hd hb, npyStart]
  simp [vstackArrays, bind, Except.bind]

example := C84_no_braces_partial (α := ℕ) (fun _ _ => .error .key) "out".toList "agents".toList
  ⟨fun _ => [7], fun _ => none⟩ ordinary_out noBraces_out.1 noBraces_out.2

/-- **C84** fails: the directory name is used as a format template, so for the directory `a}` saving
raises a `ValueError`. -/
theorem C84_fails : ¬ C84_statement := by
  intro h
  obtain ⟨co, w', hr, _⟩ := h ℕ (fun _ _ => .error .key) "a}".toList "agents".toList
    ⟨fun _ => [], fun _ => none⟩ ⟨by decide, by decide, by decide⟩
  have hf : formatIndex (fun _ _ => .error .key) 0 (npyTemplate "a}".toList "agents".toList) =
      .error .value := by rfl
  simp only [npyRun, npySend, npyStart, hf, bind, Except.bind, if_true] at hr
  simp at hr

/-- **C84** The directory `{{a}}` is silently taken for `{a}`. -/
theorem C84_wrong_directory (other : Text → ℕ → Except PyErr Text) :
    formatIndex other 0 (npyTemplate "{{a}}".toList "agents".toList) =
      .ok "{a}/agents_0.npy".toList := by
  have h : formatIndex other 0 (npyTemplate "{{a}}".toList "agents".toList) =
    .ok ("{a}/agents_".toList ++ decimal 0 ++ ".npy".toList) := rfl
  rw [h, decimal]
  rfl

/-! ## C51 -/

/-- **C51** After any history of records, and also between a record and its flag, the file consists
of what it held before, followed (if there was a dump) by the header and exactly the records sent
up to the last dump, in order. -/
theorem C51_durable {V : Type} (fmt : CsvFormat V) (h : List (Dict V × Bool))
    (file : Option Text) :
    (csvRun fmt (csvEvents h) csvStart file).2 = (if (uptoLastDump h).isEmpty then file else
      some (file.getD [] ++ csvText fmt (uptoLastDump h))) ∧
    ∀ d, (csvRun fmt (csvEvents h ++ [(.dict d, true)]) csvStart file).2 =
      (csvRun fmt (csvEvents h) csvStart file).2 := by
  refine ⟨(csvRun_start fmt h file).2, fun d => ?_⟩
  obtain ⟨c, hc | hc⟩ := (csvRun_start fmt h file).1
  · rw [csvRun_append, hc]
    rfl
  · rw [csvRun_append, hc]
    rfl

/-- **C51** If a dump fails, the file keeps what earlier dumps wrote, and nothing that is sent later
changes it. -/
theorem C51_failed_dump {V : Type} (fmt : CsvFormat V) (h : List (Dict V × Bool)) (d : Dict V)
    (more : List (CsvSend V × Bool)) (file : Option Text) :
    (csvRun fmt (csvEvents h ++ [(.dict d, true), (.flag true, false)] ++ more) csvStart file).2 =
      if (uptoLastDump h).isEmpty then file else
        some (file.getD [] ++ csvText fmt (uptoLastDump h)) := by
  obtain ⟨⟨c, hc⟩, hf⟩ := csvRun_start fmt h file
  rw [csvRun_append, csvRun_append, ← hf]
  have : ∀ f, (csvRun fmt [(.dict d, true), (.flag true, false)]
      (csvRun fmt (csvEvents h) csvStart file).1 f) = (.dead, f) := by
    intro f
    rcases hc with hc | hc
    · rw [hc]
      rfl
    · rw [hc]
      rfl
  rw [this, csvRun_dead]

/-- **C51** What the coroutine accepts: after any number of records the next record is accepted, and
then either flag, if the file can be written; without a dump the file is not needed. A flag where a
record is due is an `AttributeError`, a file that cannot be opened an `OSError`, and after an
exception the coroutine has ended: every send raises `StopIteration`. -/
theorem C51_protocol {V : Type} (fmt : CsvFormat V) (h : List (Dict V × Bool)) (d : Dict V)
    (file : Option Text) :
    let send := fun (x : CsvSend V) (opened : Bool) (s : CsvCo × Option Text) =>
      csvSend fmt opened x s.1 s.2
    let s := csvRun fmt (csvEvents h) csvStart file
    (∀ opened, (send (.dict d) opened s).1 = .ok ()) ∧
    (send (.flag true) true (send (.dict d) true s).2).1 = .ok () ∧
    (∀ opened, (send (.flag false) opened (send (.dict d) true s).2).1 = .ok ()) ∧
    (send (.flag true) false (send (.dict d) true s).2).1 = .error .os ∧
    (∀ b opened, (send (.flag b) opened s).1 = .error .attribute) ∧
    (∀ b opened x opened', (send x opened' (send (.flag b) opened s).2).1 =
      .error .stopIteration) ∧
    ∀ x opened, (send x opened (send (.flag true) false (send (.dict d) true s).2).2).1 =
      .error .stopIteration := by
  obtain ⟨⟨c, hc⟩, -⟩ := csvRun_start fmt h file
  rcases hc with hc | hc <;>
  · simp only [hc]
    refine ⟨fun _ => rfl, rfl, fun _ => rfl, rfl, fun _ _ => rfl, fun _ _ _ _ => rfl,
      fun _ _ => rfl⟩

/-- Two records were sent; a third one is accepted. -/
example (fmt : CsvFormat ℕ) : (csvSend fmt true (.dict [("x".toList, 3)])
    (csvRun fmt (csvEvents [([("x".toList, 1)], false), ([("x".toList, 2)], true)]) csvStart
      none).1 none).1 = .ok () := rfl

/-- A history of three records, two of them dumped. -/
example : uptoLastDump [("x", false), ("y", true), ("z", false)] = ["x", "y"] := rfl

/-! ## C52 -/

/-- C52, full statement: with a library that can read its own descriptions, what was saved in a new
file is loaded again. -/
def C52_statement : Prop :=
  ∀ (G J : Type) (lib : GeoLib G J), (∀ g, lib.shape (lib.mapping g) = .ok g) →
    ∀ geometries : List (Text × GeomEntry G),
      loadGeometryJson lib (saveGeometryJson lib geometries none).2 = .ok geometries

/-- **C52** (partial) Dictionaries whose values are `None` or lists of geometries are loaded as they
were saved. -/
theorem C52_lists_partial {G J : Type} (lib : GeoLib G J)
    (hl : ∀ g, lib.shape (lib.mapping g) = .ok g) (geometries : List (Text × GeomEntry G))
    (h : ∀ e ∈ geometries, IsNoneOrList e.2) :
    (saveGeometryJson lib geometries none).1 = .ok () ∧
      loadGeometryJson lib (saveGeometryJson lib geometries none).2 = .ok geometries := by
  obtain ⟨obj, entries, h1, h2, h3⟩ := json_roundtrip lib hl geometries h
  have e : saveGeometryJson lib geometries none = (.ok (), some [.document entries]) := by
    unfold saveGeometryJson
    simp only [h1, h2]
    rfl
  rw [e]
  exact ⟨rfl, h3⟩

/-- **C52** A dictionary with a single geometry (such as the domain of a field) can never be loaded
again, whatever else it contains and whatever shapely does. -/
theorem C52_single {G J : Type} (lib : GeoLib G J) (geometries : List (Text × GeomEntry G))
    (name : Text) (g : G) (h : (name, .single g) ∈ geometries) :
    ∃ e, loadGeometryJson lib (saveGeometryJson lib geometries none).2 = .error e := by
  unfold saveGeometryJson
  cases hm : mapGeometries lib geometries with
  | error e => exact ⟨.value, rfl⟩
  | ok obj =>
    simp only
    obtain ⟨m, h1, h2⟩ := mapGeometries_mem lib geometries obj hm name _ h
    cases hs : serializable obj with
    | none => exact ⟨.value, rfl⟩
    | some entries =>
      simp only [Option.getD_none, List.nil_append, loadGeometryJson]
      unfold geometryMapping at h1
      simp only at h1
      split_ifs at h1 with hg
      · simp only [Except.ok.injEq] at h1
        subst h1
        exfalso
        clear hm h
        induction obj generalizing entries with
        | nil => simp at h2
        | cons x rest ih =>
          obtain ⟨n, x⟩ := x
          cases x with
          | none => simp [serializable] at hs
          | some x =>
            cases hr : serializable rest with
            | none => simp [serializable, hr] at hs
            | some es =>
              rcases List.mem_cons.1 h2 with h2 | h2
              · simp at h2
              · exact ih es hr h2
      · simp only [Except.ok.injEq] at h1
        subst h1
        exact shapeEntries_obj lib entries ⟨_, serializable_mem obj entries hs name _ h2, _, rfl⟩

/-- **C52** Saving twice to the same file makes it unreadable. -/
theorem C52_twice {G J : Type} (lib : GeoLib G J) (a b : List (Text × GeomEntry G))
    (ha : (saveGeometryJson lib a none).1 = .ok ()) :
    (saveGeometryJson lib b (saveGeometryJson lib a none).2).1 = .ok () →
    loadGeometryJson lib (saveGeometryJson lib b (saveGeometryJson lib a none).2).2 =
      .error .value := by
  intro hb
  have key : ∀ (x : List (Text × GeomEntry G)) (f : Option (List (JsonChunk J))),
      (saveGeometryJson lib x f).1 = .ok () →
      ∃ es, (saveGeometryJson lib x f).2 = some (f.getD [] ++ [.document es]) := by
    intro x f hx
    unfold saveGeometryJson at hx ⊢
    cases hm : mapGeometries lib x with
    | error e => rw [hm] at hx; simp at hx
    | ok obj =>
      rw [hm] at hx
      simp only at hx ⊢
      cases hs : serializable obj with
      | none => rw [hs] at hx; simp at hx
      | some es => exact ⟨es, rfl⟩
  obtain ⟨e1, h1⟩ := key a none ha
  obtain ⟨e2, h2⟩ := key b _ hb
  rw [h2, h1]
  rfl

/-- A library with numbers as geometries. -/
def plainLib : GeoLib ℕ ℕ := ⟨id, .ok, fun n => n == 0⟩

/-- **C52** fails for a field with a domain. -/
theorem C52_fails : ¬ C52_statement := by
  intro h
  have h1 := h ℕ ℕ plainLib (fun _ => rfl) [("domain".toList, .single 5)]
  obtain ⟨e, he⟩ := C52_single plainLib [("domain".toList, .single 5)] "domain".toList 5
    List.mem_cons_self
  rw [he] at h1
  simp at h1

/-- **C52** Multi-part geometries come back as lists. -/
theorem C52_multi {G J : Type} (lib : GeoLib G J) (hl : ∀ g, lib.shape (lib.mapping g) = .ok g)
    (name : Text) (parts : List G) :
    loadGeometryJson lib (saveGeometryJson lib [(name, .multi parts)] none).2 =
      .ok [(name, .list parts)] := by
  simp [saveGeometryJson, mapGeometries, geometryMapping, serializable, loadGeometryJson,
    shapeEntries, geometryShape, bind, Except.bind, mapM_shape lib hl, Except.map]

/-- Both hypotheses can be met. -/
example : (∀ g, plainLib.shape (plainLib.mapping g) = .ok g) ∧
    (∀ e ∈ [("obstacles".toList, GeomEntry.none), ("targets".toList, GeomEntry.list [3, 4])],
      IsNoneOrList e.2) ∧
    (saveGeometryJson plainLib [("targets".toList, .list [3])] none).1 = .ok () :=
  ⟨fun _ => rfl, by simp [IsNoneOrList], rfl⟩

end CrowdDynamics
