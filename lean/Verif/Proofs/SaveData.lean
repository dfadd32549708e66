import Verif.Spec.SaveData
import Verif.Proofs.IO

/-!
# Lemmas about stored simulations
-/

namespace CrowdDynamics

open Spec

/-- What the coroutine for the agents gets. -/
def saveEvents {α V : Type} (h : List (List α × Dict V × Bool)) : List (NpyEvent α) :=
  h.flatMap fun x => [.update 0 x.1, .send 0 x.2.2]

lemma saveEvents_dumps {α V : Type} (h : List (List α × Dict V × Bool)) :
    dumps (saveEvents h) = saves h := by
  induction h with
  | nil => rfl
  | cons x rest ih =>
    obtain ⟨rows, d, b⟩ := x
    cases b with
    | false => exact ih
    | true =>
      change dumps (saveEvents rest) + 1 = _
      rw [ih]
      rfl

lemma saveEvents_frames {α V : Type} (h : List (List α × Dict V × Bool)) (heap : ℕ → List α)
    (k : ℕ) : framesAtDump heap (List.replicate k 0) (saveEvents h) =
      copiesAtSave k (historyRows h) := by
  induction h generalizing heap k with
  | nil => rfl
  | cons x rest ih =>
    obtain ⟨rows, d, b⟩ := x
    cases b with
    | false =>
      change framesAtDump (Function.update heap 0 rows) (List.replicate k 0 ++ [0])
        (saveEvents rest) = copiesAtSave (k + 1) (historyRows rest)
      rw [show List.replicate k 0 ++ [0] = List.replicate (k + 1) 0 from
        List.replicate_succ'.symm, ih]
    | true =>
      change (List.replicate k 0 ++ [0]).map (Function.update heap 0 rows) ++
        framesAtDump (Function.update heap 0 rows) [] (saveEvents rest) =
        List.replicate (k + 1) rows ++ copiesAtSave 0 (historyRows rest)
      rw [show List.replicate k 0 ++ [0] = List.replicate (k + 1) 0 from
        List.replicate_succ'.symm, List.map_replicate, Function.update_self, ← ih _ 0]
      rfl

lemma copiesAtSave_length {α : Type} (h : List (List α × Bool)) (k : ℕ) :
    (copiesAtSave k h).length =
      if (uptoLastDump h).isEmpty then 0 else k + (uptoLastDump h).length := by
  induction h generalizing k with
  | nil => rfl
  | cons x rest ih =>
    obtain ⟨rows, b⟩ := x
    cases b with
    | false =>
      rw [copiesAtSave, ih, uptoLastDump_cons_false]
      cases uptoLastDump rest with
      | nil => simp
      | cons a l => simp; omega
    | true =>
      rw [copiesAtSave, List.length_append, List.length_replicate, ih, uptoLastDump_cons_true]
      cases uptoLastDump rest with
      | nil => simp
      | cons a l => simp; omega

lemma copiesAtSave_all {α : Type} (h : List (List α × Bool)) (hall : ∀ x ∈ h, x.2 = true) :
    copiesAtSave 0 h = h.map Prod.fst := by
  induction h with
  | nil => rfl
  | cons x rest ih =>
    obtain ⟨rows, b⟩ := x
    obtain rfl : b = true := hall _ List.mem_cons_self
    rw [copiesAtSave, ih fun x hx => hall x (List.mem_cons_of_mem _ hx)]
    rfl

lemma csvRecord_ok {V : Type} {fmt : CsvFormat V} {opened dump : Bool} {d : Dict V} {co co' : CsvCo}
    {file file' : Option Text} (h : csvRecord fmt opened d dump co file = (.ok (), co', file')) :
    csvRun fmt [(.dict d, true), (.flag dump, true)] co file = (co', file') := by
  have key : ∀ x, csvSend fmt opened x co file = (.ok (), (csvSend fmt opened x co file).2.1,
      (csvSend fmt opened x co file).2.2) →
      csvSend fmt true x co file = csvSend fmt opened x co file := by
    intro x hx
    cases opened with
    | true => rfl
    | false =>
      cases co with
      | first b => cases x <;> rfl
      | wantData b => cases x <;> rfl
      | dead => rfl
      | wantFlag b =>
        cases ht : x.truthy with
        | false => simp [csvSend, ht]
        | true => simp [csvSend, ht, csvDumper] at hx
  unfold csvRecord at h
  cases h1 : csvSend fmt opened (.dict d) co file with
  | mk r s =>
    obtain ⟨co1, file1⟩ := s
    rw [h1] at h
    cases r with
    | error e => simp at h
    | ok u =>
      simp only at h
      have e1 : csvSend fmt true (.dict d) co file = (.ok (), co1, file1) := by
        rw [key _ (by rw [h1]), h1]
      have e2 : csvSend fmt true (.flag dump) co1 file1 = (.ok (), co', file') := by
        cases opened with
        | true => exact h
        | false =>
          cases co1 with
          | first b => simp [csvSend] at h
          | wantData b => simp [csvSend] at h
          | dead => simp [csvSend] at h
          | wantFlag b =>
            cases dump with
            | false => simpa [csvSend, CsvSend.truthy] using h
            | true => simp [csvSend, CsvSend.truthy, csvDumper] at h
      simp only [csvRun, e1, e2]

lemma csvRecord_error {V : Type} {fmt : CsvFormat V} {opened dump : Bool} {d : Dict V}
    {co co' : CsvCo} {file file' : Option Text} {e : PyErr}
    (h : csvRecord fmt opened d dump co file = (.error e, co', file'))
    (hco : ∃ c, co = .wantData ⟨c, c.length⟩ ∨ co = csvStart) :
    dump = true ∧ file' = file ∧ e = .os := by
  obtain ⟨c, rfl | rfl⟩ := hco <;> cases dump <;> cases opened <;>
    simp_all [csvRecord, csvSend, CsvSend.truthy, csvDumper, csvStart]

/-- A completed run, seen by the two coroutines. -/
lemma saveRun_ok {α V G J : Type} (lib : SaveLib V G J) (history : List (List α × Dict V × Bool))
    (node node' : SaveNode) (w w' : SaveWorld α J)
    (h : saveRun lib history node w = (.ok (), node', w')) :
    node'.directory = node.directory ∧
    npyRun lib.other lib.writable (npyTemplate node.directory "agents".toList) (saveEvents history)
      node.agents w.npy = (.ok (), node'.agents, w'.npy) ∧
    csvRun lib.fmt (csvEvents (historyData history)) node.data
      (w.csv (csvPath node.directory "data".toList)) =
        (node'.data, w'.csv (csvPath node.directory "data".toList)) ∧
    (∀ p, p ≠ csvPath node.directory "data".toList → w'.csv p = w.csv p) ∧ w'.json = w.json := by
  induction history generalizing node w with
  | nil =>
    simp only [saveRun, Prod.mk.injEq, true_and] at h
    obtain ⟨rfl, rfl⟩ := h
    exact ⟨rfl, rfl, rfl, fun _ _ => rfl, rfl⟩
  | cons x rest ih =>
    obtain ⟨rows, d, b⟩ := x
    rw [saveRun] at h
    unfold saveUpdate at h
    simp only at h
    cases hn : npySend lib.other lib.writable (npyTemplate node.directory "agents".toList)
        node.agents { w.npy with heap := Function.update w.npy.heap 0 rows } 0 b with
    | error e => rw [hn] at h; simp at h
    | ok q =>
      obtain ⟨co, npy⟩ := q
      rw [hn] at h
      simp only at h
      cases hc : csvRecord lib.fmt (lib.writable (csvPath node.directory "data".toList)) d b
          node.data (w.csv (csvPath node.directory "data".toList)) with
      | mk r s =>
        obtain ⟨co', file⟩ := s
        rw [hc] at h
        cases r with
        | error e => simp at h
        | ok u =>
          simp only at h
          obtain ⟨h1, h2, h3, h4, h5⟩ := ih _ _ h
          refine ⟨h1, ?_, ?_, ?_, h5⟩
          · change npyRun _ _ _ (.update 0 rows :: .send 0 b :: saveEvents rest) _ _ = _
            rw [npyRun, npyRun, hn]
            exact h2
          · change csvRun lib.fmt ([(.dict d, true), (.flag b, true)] ++
              csvEvents (historyData rest)) _ _ = _
            rw [csvRun_append, csvRecord_ok hc, ← h3]
            simp only [Function.update_self]
          · intro p hp
            rw [h4 p hp]
            exact Function.update_of_ne hp _ _

/-- A run that was ended by an exception. -/
lemma saveRun_error {α V G J : Type} (lib : SaveLib V G J)
    (history : List (List α × Dict V × Bool)) (node node' : SaveNode) (w w' : SaveWorld α J)
    (e : PyErr) (h : saveRun lib history node w = (.error e, node', w')) :
    ∃ before x after node1 w1, history = before ++ x :: after ∧
      saveRun lib before node w = (.ok (), node1, w1) ∧
      saveUpdate lib 0 x.2.1 x.2.2 node1
        { w1 with npy := { w1.npy with heap := Function.update w1.npy.heap 0 x.1 } } =
        (.error e, node', w') := by
  induction history generalizing node w with
  | nil => simp [saveRun] at h
  | cons x rest ih =>
    obtain ⟨rows, d, b⟩ := x
    rw [saveRun] at h
    cases hu : saveUpdate lib 0 d b node
        { w with npy := { w.npy with heap := Function.update w.npy.heap 0 rows } } with
    | mk r s =>
      obtain ⟨node1, w1⟩ := s
      simp only [hu] at h
      cases r with
      | error e' =>
        simp only [Prod.mk.injEq, Except.error.injEq] at h
        obtain ⟨rfl, rfl, rfl⟩ := h
        exact ⟨[], (rows, d, b), rest, node, w, rfl, rfl, hu⟩
      | ok u =>
        simp only at h
        obtain ⟨before, x, after, node2, w2, h1, h2, h3⟩ := ih _ _ h
        refine ⟨(rows, d, b) :: before, x, after, node2, w2, by rw [h1]; rfl, ?_, h3⟩
        rw [saveRun]
        simp only [hu]
        exact h2

lemma csvPath_eq {directory : Text} (hd : Plain directory) (basename : Text)
    (hb : '/' ∉ basename) :
    csvPath directory basename = directory ++ '/' :: (basename ++ ".csv".toList) := by
  have ho : Ordinary directory basename := ⟨hd.named, hd.noTrail, hb⟩
  exact pathJoin_own ho _ (by decide)

lemma jsonPath_eq {directory : Text} (hd : Plain directory) :
    pathJoin directory "geometry.json".toList = directory ++ "/geometry.json".toList := by
  have ho : Ordinary directory "geometry".toList := ⟨hd.named, hd.noTrail, by decide⟩
  have := pathJoin_own ho ".json".toList (by decide)
  simpa using this

lemma Spec.Plain.agents {directory : Text} (hd : Plain directory) :
    Ordinary directory "agents".toList := ⟨hd.named, hd.noTrail, by decide⟩

/-- What the constructor writes. -/
lemma saveInit_ok {α V G J : Type} (lib : SaveLib V G J) (directory : Text) (metadata : Dict V)
    (geometries : List (Text × GeomEntry G)) (w w' : SaveWorld α J) (node : SaveNode)
    (hd : Plain directory) (h : saveInit lib directory metadata geometries w = (.ok node, w')) :
    node = ⟨directory, npyStart, csvStart⟩ ∧ w'.npy = w.npy ∧
    w'.csv (directory ++ "/metadata.csv".toList) =
      some ((w.csv (directory ++ "/metadata.csv".toList)).getD [] ++
        csvText lib.fmt [metadata]) ∧
    w'.csv (directory ++ "/data.csv".toList) = w.csv (directory ++ "/data.csv".toList) ∧
    (saveGeometryJson lib.geo geometries (w.json (directory ++ "/geometry.json".toList))).1 =
      .ok () ∧
    w'.json (directory ++ "/geometry.json".toList) =
      (saveGeometryJson lib.geo geometries (w.json (directory ++ "/geometry.json".toList))).2 := by
  have hm : csvPath directory "metadata".toList = directory ++ "/metadata.csv".toList :=
    csvPath_eq hd _ (by decide)
  have hne : directory ++ "/data.csv".toList ≠ directory ++ "/metadata.csv".toList := by
    intro h
    exact absurd (List.append_cancel_left h) (by decide)
  unfold saveInit at h
  rw [hm, jsonPath_eq hd] at h
  generalize directory ++ "/metadata.csv".toList = pm at *
  generalize directory ++ "/data.csv".toList = pd at *
  generalize directory ++ "/geometry.json".toList = pg at *
  cases h1 : lib.makedirs directory with
  | false => simp [h1] at h
  | true =>
    rw [h1, if_pos rfl] at h
    simp only at h
    cases hc : csvRecord lib.fmt (lib.writable pm) metadata true csvStart (w.csv pm) with
    | mk r s =>
      obtain ⟨co, file⟩ := s
      rw [hc] at h
      cases r with
      | error e => simp at h
      | ok u =>
        simp only at h
        cases h2 : lib.writable pg with
        | false => simp [h2] at h
        | true =>
          rw [h2, if_pos rfl] at h
          have hf : file = some ((w.csv pm).getD [] ++ csvText lib.fmt [metadata]) := by
            have e1 := csvRecord_ok hc
            have e2 := (csvRun_start lib.fmt [(metadata, true)] (w.csv pm)).2
            have e3 : csvEvents [(metadata, true)] =
              [(.dict metadata, true), (.flag true, true)] := rfl
            rw [e3, e1] at e2
            exact e2
          cases hs : saveGeometryJson lib.geo geometries (w.json pg) with
          | mk r s =>
            rw [hs] at h
            cases r with
            | error e => simp at h
            | ok u =>
              simp only [Prod.mk.injEq, Except.ok.injEq] at h
              obtain ⟨rfl, rfl⟩ := h
              refine ⟨rfl, rfl, ?_, ?_, rfl, ?_⟩
              · simp only [Function.update_self, hf]
              · simp only
                rw [Function.update_of_ne hne]
              · simp only [Function.update_self]

lemma split_last {a b c d : Text} (h : a ++ '_' :: b = c ++ '_' :: d) (hb : '_' ∉ b) (hd : '_' ∉ d) :
    a = c ∧ b = d := by
  induction a generalizing c with
  | nil =>
    cases c with
    | nil => simpa using h
    | cons x c =>
      simp only [List.nil_append, List.cons_append, List.cons.injEq] at h
      exact absurd (h.2 ▸ by simp : '_' ∈ b) hb
  | cons y a ih =>
    cases c with
    | nil =>
      simp only [List.nil_append, List.cons_append, List.cons.injEq] at h
      exact absurd (h.2 ▸ by simp : '_' ∈ d) hd
    | cons x c =>
      simp only [List.cons_append, List.cons.injEq] at h
      obtain ⟨h1, h2⟩ := ih h.2
      exact ⟨by rw [h.1, h1], h2⟩

lemma map_noSpace (s : Text) (h : ' ' ∉ s) :
    s.map (fun c => if c = ' ' then '_' else c) = s := by
  induction s with
  | nil => rfl
  | cons c s ih =>
    rw [List.map_cons, ih fun h' => h (List.mem_cons_of_mem _ h'), if_neg]
    exact fun h' => h (h' ▸ List.mem_cons_self)

end CrowdDynamics
