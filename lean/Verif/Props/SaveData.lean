import Verif.Proofs.SaveDataCases
import Verif.Proofs.SaveData
import Verif.Props.IO

/-!
# C121: what a stored simulation contains
-/

namespace CrowdDynamics

open Spec

/-- **C121** (full statement, refuted below): when the node was made in a fresh directory and the
simulation was run, the directory contains the metadata, the geometry of the field in a form that can
be loaded, the data of all updates up to the last save, and the agents after each of these updates. -/
def C121_statement : Prop :=
  ∀ (α V G J : Type) (lib : SaveLib V G J) (directory : Text) (metadata : Dict V)
    (geometries : List (Text × GeomEntry G)) (history : List (List α × Dict V × Bool))
    (w w1 w2 : SaveWorld α J) (node node' : SaveNode),
    (∀ g, lib.geo.shape (lib.geo.mapping g) = .ok g) → Plain directory → Fresh directory w →
    saveInit lib directory metadata geometries w = (.ok node, w1) →
    saveRun lib history node w1 = (.ok (), node', w2) →
    CsvHolds lib.fmt (w2.csv (directory ++ "/metadata.csv".toList)) [metadata] ∧
    CsvHolds lib.fmt (w2.csv (directory ++ "/data.csv".toList))
      (uptoLastDump (historyData history)) ∧
    loadGeometryJson lib.geo (w2.json (directory ++ "/geometry.json".toList)) = .ok geometries ∧
    FilesHold w2.npy.disk directory "agents".toList (saves history)
      (uptoLastDump (historyRows history))

/-- **C121** (partial) After any completed run the files of metadata and data are as stated. The
agents are stored once for each row of data, but each time as they were at the next save. Missing:
the state of the agents at the updates between two saves, and the geometry. -/
theorem C121_partial {α V G J : Type} (lib : SaveLib V G J) (directory : Text) (metadata : Dict V)
    (geometries : List (Text × GeomEntry G)) (history : List (List α × Dict V × Bool))
    (w w1 w2 : SaveWorld α J) (node node' : SaveNode) (hd : Plain directory)
    (hf : Fresh directory w)
    (hi : saveInit lib directory metadata geometries w = (.ok node, w1))
    (hr : saveRun lib history node w1 = (.ok (), node', w2)) :
    CsvHolds lib.fmt (w2.csv (directory ++ "/metadata.csv".toList)) [metadata] ∧
    CsvHolds lib.fmt (w2.csv (directory ++ "/data.csv".toList))
      (uptoLastDump (historyData history)) ∧
    FilesHold w2.npy.disk directory "agents".toList (saves history)
      (copiesAtSave 0 (historyRows history)) ∧
    (copiesAtSave 0 (historyRows history)).length = (uptoLastDump (historyData history)).length := by
  obtain ⟨rfl, h2, h3, h4, h5, h6⟩ := saveInit_ok lib directory metadata geometries w w1 node hd hi
  obtain ⟨g1, g2, g3, g4, g5⟩ := saveRun_ok lib history _ node' w1 w2 hr
  have hp : csvPath directory "data".toList = directory ++ "/data.csv".toList :=
    csvPath_eq hd _ (by decide)
  have hne : directory ++ "/metadata.csv".toList ≠ directory ++ "/data.csv".toList := by
    intro h
    exact absurd (List.append_cancel_left h) (by decide)
  refine ⟨?_, ?_, ?_, ?_⟩
  · change _ = some (csvText lib.fmt [metadata])
    simp only at g4
    rw [hp] at g4
    rw [g4 _ hne, h3, hf.metadata]
    rfl
  · have := (csvRun_start lib.fmt (historyData history) none).2
    simp only at g3
    rw [hp, h4, hf.data] at g3
    rw [g3] at this
    exact this
  · have := C49_at_dump lib.other lib.writable directory "agents".toList (saveEvents history) w1.npy
      w2.npy node'.agents hd.agents hd.noBraces ⟨by decide, by decide⟩ g2
    rw [this.1, saveEvents_dumps] at this
    have e := saveEvents_frames history w1.npy.heap 0
    rw [List.replicate_zero] at e
    rw [e] at this
    exact this.2
  · have key : ∀ h : List (List α × Dict V × Bool),
        (uptoLastDump (historyRows h)).length = (uptoLastDump (historyData h)).length := by
      intro h
      induction h with
      | nil => rfl
      | cons x rest ih =>
        obtain ⟨rows, d, b⟩ := x
        change (uptoLastDump ((rows, b) :: historyRows rest)).length =
          (uptoLastDump ((d, b) :: historyData rest)).length
        cases b with
        | true => rw [uptoLastDump_cons_true, uptoLastDump_cons_true, List.length_cons,
            List.length_cons, ih]
        | false =>
          rw [uptoLastDump_cons_false, uptoLastDump_cons_false]
          cases h1 : uptoLastDump (historyRows rest) with
          | nil =>
            rw [h1] at ih
            rw [List.eq_nil_of_length_eq_zero ih.symm]
            rfl
          | cons a l =>
            cases h2 : uptoLastDump (historyData rest) with
            | nil => rw [h1, h2] at ih; simp at ih
            | cons a' l' =>
              rw [h1, h2] at ih
              simpa using ih
    rw [copiesAtSave_length, ← key]
    cases uptoLastDump (historyRows history) with
    | nil => rfl
    | cons a l => simp

/-- **C121** (partial) If every update is saved, then the agents after each update are stored. -/
theorem C121_every_update_partial {α V G J : Type} (lib : SaveLib V G J) (directory : Text)
    (metadata : Dict V) (geometries : List (Text × GeomEntry G))
    (history : List (List α × Dict V × Bool)) (w w1 w2 : SaveWorld α J) (node node' : SaveNode)
    (hd : Plain directory) (hf : Fresh directory w)
    (hi : saveInit lib directory metadata geometries w = (.ok node, w1))
    (hr : saveRun lib history node w1 = (.ok (), node', w2)) (hall : ∀ x ∈ history, x.2.2 = true) :
    FilesHold w2.npy.disk directory "agents".toList history.length (history.map Prod.fst) := by
  have h := (C121_partial lib directory metadata geometries history w w1 w2 node node' hd hf hi
    hr).2.2.1
  have e1 : saves history = history.length := by
    unfold saves
    rw [List.filter_eq_self.2 fun x hx => hall x hx]
  rw [e1, copiesAtSave_all _ fun x hx => ?_] at h
  · unfold historyRows at h
    rw [List.map_map] at h
    exact h
  · obtain ⟨y, hy, rfl⟩ := List.mem_map.1 hx
    exact hall y hy

/-- **C121** (partial) The geometry can be loaded if the field has neither a domain nor obstacles. -/
theorem C121_geometry_partial {α V G J : Type} (lib : SaveLib V G J) (directory : Text)
    (metadata : Dict V) (targets spawns : List G) (history : List (List α × Dict V × Bool))
    (w w1 w2 : SaveWorld α J) (node node' : SaveNode)
    (hl : ∀ g, lib.geo.shape (lib.geo.mapping g) = .ok g) (hd : Plain directory)
    (hf : Fresh directory w)
    (hi : saveInit lib directory metadata (fieldGeometries .none .none targets spawns) w =
      (.ok node, w1))
    (hr : saveRun lib history node w1 = (.ok (), node', w2)) :
    loadGeometryJson lib.geo (w2.json (directory ++ "/geometry.json".toList)) =
      .ok [("domain".toList, .none), ("obstacles".toList, .none), ("targets".toList, .list targets),
        ("spawns".toList, .list spawns)] := by
  obtain ⟨_, _, _, _, h5, h6⟩ := saveInit_ok lib directory metadata _ w w1 node hd hi
  obtain ⟨_, _, _, _, g5⟩ := saveRun_ok lib history _ node' w1 w2 hr
  rw [g5, h6, hf.geometry]
  exact (C52_lists_partial lib.geo hl _ (by simp [fieldGeometries, IsNoneOrList])).2

/-- **C121** The geometry of a field whose domain is set (a polygon) can never be loaded, and neither
can any geometry once a second simulation was stored in the same directory. -/
theorem C121_geometry_error {α V G J : Type} (lib : SaveLib V G J) (directory : Text)
    (metadata metadata' : Dict V) (domain obstacles domain' obstacles' : GeomEntry G)
    (targets spawns targets' spawns' : List G)
    (history : List (List α × Dict V × Bool)) (w w1 w2 w3 : SaveWorld α J)
    (node node' node'' : SaveNode) (hd : Plain directory) (hf : Fresh directory w)
    (hi : saveInit lib directory metadata (fieldGeometries domain obstacles targets spawns) w =
      (.ok node, w1))
    (hr : saveRun lib history node w1 = (.ok (), node', w2)) :
    (∀ polygon, domain = .single polygon →
      ∃ e, loadGeometryJson lib.geo (w2.json (directory ++ "/geometry.json".toList)) = .error e) ∧
    (saveInit lib directory metadata' (fieldGeometries domain' obstacles' targets' spawns') w2 =
        (.ok node'', w3) →
      loadGeometryJson lib.geo (w3.json (directory ++ "/geometry.json".toList)) =
        .error .value) := by
  obtain ⟨_, _, _, _, h5, h6⟩ := saveInit_ok lib directory metadata _ w w1 node hd hi
  obtain ⟨_, _, _, _, g5⟩ := saveRun_ok lib history _ node' w1 w2 hr
  constructor
  · rintro polygon rfl
    rw [g5, h6, hf.geometry]
    exact C52_single lib.geo _ "domain".toList polygon List.mem_cons_self
  · intro h3
    obtain ⟨_, _, _, _, k5, k6⟩ := saveInit_ok lib directory metadata' _ w2 w3 node'' hd h3
    rw [g5, h6, hf.geometry] at k5 k6
    rw [hf.geometry] at h5
    rw [k6]
    exact C52_twice lib.geo _ _ h5 k5

/-- **C121** When an exception ends the run, it was raised at a save; all data up to the save before
is in the file and no other data; the agents are stored up to the save before, or up to this save. -/
theorem C121_crash {α V G J : Type} (lib : SaveLib V G J) (directory : Text) (metadata : Dict V)
    (geometries : List (Text × GeomEntry G)) (history : List (List α × Dict V × Bool))
    (w w1 w2 : SaveWorld α J) (node node' : SaveNode) (e : PyErr) (hd : Plain directory)
    (hf : Fresh directory w)
    (hi : saveInit lib directory metadata geometries w = (.ok node, w1))
    (hr : saveRun lib history node w1 = (.error e, node', w2)) :
    ∃ before rows data after, history = before ++ (rows, data, true) :: after ∧
      CsvHolds lib.fmt (w2.csv (directory ++ "/data.csv".toList))
        (uptoLastDump (historyData before)) ∧
      (FilesHold w2.npy.disk directory "agents".toList (saves before)
          (copiesAtSave 0 (historyRows before)) ∨
        FilesHold w2.npy.disk directory "agents".toList (saves before + 1)
          (copiesAtSave 0 (historyRows (before ++ [(rows, data, true)])))) := by
  obtain ⟨before, x, after, node1, wb, hs, hb, hu⟩ := saveRun_error lib history node node' w1 w2 e hr
  obtain ⟨rows, data, b⟩ := x
  obtain ⟨_, p2, p3, _⟩ := C121_partial lib directory metadata geometries before w w1 wb node node1 hd
    hf hi hb
  obtain ⟨rfl, h2, h3, h4, h5, h6⟩ := saveInit_ok lib directory metadata geometries w w1 node hd hi
  obtain ⟨g1, g2, g3, g4, g5⟩ := saveRun_ok lib before _ node1 w1 wb hb
  have hp : csvPath directory "data".toList = directory ++ "/data.csv".toList :=
    csvPath_eq hd _ (by decide)
  simp only at g1 g2 g3 g4
  have hco : ∃ c, node1.data = .wantData ⟨c, c.length⟩ ∨ node1.data = csvStart := by
    have := (csvRun_start lib.fmt (historyData before)
      (w1.csv (csvPath directory "data".toList))).1
    rw [g3] at this
    exact this
  unfold saveUpdate at hu
  rw [g1] at hu
  simp only at hu
  cases hn : npySend lib.other lib.writable (npyTemplate directory "agents".toList) node1.agents
      { wb.npy with heap := Function.update wb.npy.heap 0 rows } 0 b with
  | error e' =>
    rw [hn] at hu
    simp only [Prod.mk.injEq] at hu
    obtain ⟨_, _, rfl⟩ := hu
    have hbt : b = true := by
      cases b with
      | true => rfl
      | false => simp [npySend] at hn
    subst hbt
    exact ⟨before, rows, data, after, hs, p2, Or.inl p3⟩
  | ok q =>
    obtain ⟨co, npy⟩ := q
    rw [hn] at hu
    simp only at hu
    cases hc : csvRecord lib.fmt (lib.writable (csvPath directory "data".toList)) data b
        node1.data (wb.csv (csvPath directory "data".toList)) with
    | mk r s =>
      obtain ⟨co', file⟩ := s
      rw [hc] at hu
      simp only [Prod.mk.injEq] at hu
      obtain ⟨rfl, rfl, rfl⟩ := hu
      obtain ⟨rfl, rfl, _⟩ := csvRecord_error hc hco
      refine ⟨before, rows, data, after, hs, ?_, Or.inr ?_⟩
      · simp only
        rw [Function.update_eq_self]
        exact p2
      · have key : npyRun lib.other lib.writable (npyTemplate directory "agents".toList)
            (saveEvents (before ++ [(rows, data, true)])) npyStart w1.npy = (.ok (), co, npy) := by
          have happ : ∀ (a b : List (NpyEvent α)) (c c1 : NpyCo) (u u1 : NpyWorld α),
              npyRun lib.other lib.writable (npyTemplate directory "agents".toList) a c u =
                (.ok (), c1, u1) →
              npyRun lib.other lib.writable (npyTemplate directory "agents".toList) (a ++ b) c u =
                npyRun lib.other lib.writable (npyTemplate directory "agents".toList) b c1 u1 := by
            intro a b
            induction a with
            | nil =>
              intro c c1 u u1 h
              simp only [npyRun, Prod.mk.injEq, true_and] at h
              obtain ⟨rfl, rfl⟩ := h
              rfl
            | cons y a ih =>
              intro c c1 u u1 h
              cases y with
              | update ref r => exact ih _ _ _ _ h
              | send ref dump =>
                rw [npyRun] at h
                rw [List.cons_append, npyRun]
                cases hn : npySend lib.other lib.writable (npyTemplate directory "agents".toList) c
                    u ref dump with
                | error e => rw [hn] at h; simp at h
                | ok q =>
                  rw [hn] at h
                  exact ih _ _ _ _ h
          have e1 : saveEvents (before ++ [(rows, data, true)]) =
              saveEvents before ++ [.update 0 rows, .send 0 true] := by
            unfold saveEvents
            rw [List.flatMap_append]
            rfl
          rw [e1, happ _ _ _ _ _ _ g2, npyRun, npyRun, hn]
          rfl
        have := C49_at_dump lib.other lib.writable directory "agents".toList _ w1.npy npy co
          hd.agents hd.noBraces ⟨by decide, by decide⟩ key
        rw [this.1, saveEvents_dumps] at this
        have e := saveEvents_frames (before ++ [(rows, data, true)]) w1.npy.heap 0
        rw [List.replicate_zero] at e
        rw [e] at this
        have e2 : saves (before ++ [(rows, data, true)]) = saves before + 1 := by
          unfold saves
          rw [List.filter_append, List.length_append]
          rfl
        rw [e2] at this
        exact this.2

/-- A library in which all works; geometries are described by themselves. -/
def plainSaveLib : SaveLib ℕ ℕ ℕ where
  other := fun _ _ => .error .key
  writable := fun _ => true
  makedirs := fun _ => true
  fmt := ⟨fun ks => ks.flatten, fun vs => vs.flatMap fun v => [Char.ofNat (48 + v)]⟩
  geo := plainLib

/-- An empty disk. -/
def emptySaveWorld : SaveWorld ℕ ℕ := ⟨⟨fun _ => [], fun _ => none⟩, fun _ => none, fun _ => none⟩

/-- **C121** The statement fails: after two updates of which the second is saved, both stored frames
show the agents after the second. -/
theorem C121_fails : ¬ C121_statement := by
  intro h
  have e1 : (saveInit plainSaveLib "run".toList [] [] emptySaveWorld).1 =
      .ok ⟨"run".toList, npyStart, csvStart⟩ := rfl
  obtain ⟨w1, hw1⟩ : ∃ w1, (saveInit plainSaveLib "run".toList [] [] emptySaveWorld).2 = w1 :=
    ⟨_, rfl⟩
  have e2 : saveInit plainSaveLib "run".toList [] [] emptySaveWorld =
      (.ok ⟨"run".toList, npyStart, csvStart⟩, w1) := by
    rw [← hw1, ← e1]
  have e3 : (saveRun plainSaveLib [([1], [], false), ([2], [], true)]
      ⟨"run".toList, npyStart, csvStart⟩ w1).1 = .ok () := by
    have ht := template_path plainSaveLib.other plain_run.agents plain_run.noBraces
      ⟨by decide, by decide⟩
    simp only [saveRun, saveUpdate, npySend, ht]
    rfl
  obtain ⟨s, hs⟩ : ∃ s, (saveRun plainSaveLib [([1], [], false), ([2], [], true)]
      ⟨"run".toList, npyStart, csvStart⟩ w1).2 = s := ⟨_, rfl⟩
  obtain ⟨node', w2⟩ := s
  have e4 : saveRun plainSaveLib [([1], [], false), ([2], [], true)]
      ⟨"run".toList, npyStart, csvStart⟩ w1 = (.ok (), node', w2) := by
    rw [← hs, ← e3]
  have hf : Fresh "run".toList emptySaveWorld := ⟨rfl, rfl, rfl⟩
  obtain ⟨_, _, _, parts, l1, l2, l3⟩ := h ℕ ℕ ℕ ℕ plainSaveLib "run".toList [] []
    [([1], [], false), ([2], [], true)] emptySaveWorld w1 w2 _ node' (fun _ => rfl) plain_run hf e2 e4
  obtain ⟨_, _, ⟨parts', m1, m2, m3⟩, _⟩ := C121_partial plainSaveLib "run".toList [] []
    [([1], [], false), ([2], [], true)] emptySaveWorld w1 w2 _ node' plain_run hf e2 e4
  have hpp : parts = parts' := by
    apply List.ext_getElem (l1.trans m1.symm)
    intro i hi hi'
    have := (l2 i hi).symm.trans (m2 i hi')
    exact Option.some.inj this
  rw [hpp, m3] at l3
  have : copiesAtSave 0 (historyRows (V := ℕ) [([1], [], false), ([2], [], true)]) =
    [[2], [2]] := rfl
  rw [this] at l3
  exact absurd l3 (by decide)

/-- **C121** The default directories of two simulations in the same place are different unless their
names and timestamps agree. -/
theorem C121_directory (base name name' time time' : Text) (hn : '/' ∉ name) (hn' : '/' ∉ name')
    (ht : IsTimestamp time) (ht' : IsTimestamp time')
    (h : saveFullPath base none name time = saveFullPath base none name' time') :
    name = name' ∧ time = time' := by
  have key : ∀ (name time date day : Text), time = date ++ ' ' :: day → ' ' ∉ date → ' ' ∉ day →
      nameWithTimestamp name time = (name ++ '_' :: date) ++ '_' :: day := by
    rintro name _ date day rfl h1 h2
    unfold nameWithTimestamp
    rw [List.map_append, map_noSpace _ h1, List.map_cons, map_noSpace _ h2]
    simp
  obtain ⟨d, t, rfl, h1, h2, h3, h4⟩ := ht
  obtain ⟨d', t', rfl, h1', h2', h3', h4'⟩ := ht'
  have hk := key name _ d t rfl h1 h2
  have hk' := key name' _ d' t' rfl h1' h2'
  have hh : ∀ (n d t : Text), '/' ∉ n →
      ((n ++ '_' :: d) ++ '_' :: t).head? ≠ some '/' := by
    intro n d t hn
    cases n with
    | nil => simp
    | cons c n =>
      simp only [List.cons_append, List.head?_cons, ne_eq, Option.some.injEq]
      exact fun hc => hn (hc ▸ List.mem_cons_self)
  unfold saveFullPath at h
  simp only [Option.getD_none] at h
  rw [hk, hk'] at h
  unfold pathJoin at h
  rw [if_neg (hh _ _ _ hn), if_neg (hh _ _ _ hn')] at h
  have hcut : (name ++ '_' :: d) ++ '_' :: t = (name' ++ '_' :: d') ++ '_' :: t' := by
    split_ifs at h with hb
    · exact List.append_cancel_left h
    · have := List.append_cancel_left h
      simpa using this
  obtain ⟨a1, rfl⟩ := split_last hcut h4 h4'
  obtain ⟨rfl, rfl⟩ := split_last a1 h3 h3'
  exact ⟨rfl, rfl⟩

/-- The hypotheses of the theorems about completed runs can be met, by a run with a save. -/
example : ∃ node w1 node' w2, Plain "run".toList ∧ Fresh "run".toList emptySaveWorld ∧
    (∀ g, plainSaveLib.geo.shape (plainSaveLib.geo.mapping g) = .ok g) ∧
    saveInit plainSaveLib "run".toList [("name".toList, 3)] (fieldGeometries .none .none [5] [6, 7])
      emptySaveWorld = (.ok node, w1) ∧
    saveRun plainSaveLib [([1, 4], [("time".toList, 1)], true), ([2, 5], [("time".toList, 2)], true)]
      node w1 = (.ok (), node', w2) ∧
    (∀ x ∈ [([1, 4], [("time".toList, 1)], true), ([2, 5], [("time".toList, 2)], true)],
      (x : List ℕ × Dict ℕ × Bool).2.2 = true) := by
  have ht := template_path plainSaveLib.other plain_run.agents plain_run.noBraces
    ⟨by decide, by decide⟩
  obtain ⟨w1, hw⟩ : ∃ w1, saveInit plainSaveLib "run".toList [("name".toList, 3)]
      (fieldGeometries .none .none [5] [6, 7]) emptySaveWorld =
        (.ok ⟨"run".toList, npyStart, csvStart⟩, w1) := ⟨_, rfl⟩
  obtain ⟨node', w2, h2⟩ := pair_exists (saveRun plainSaveLib
    [([1, 4], [("time".toList, 1)], true), ([2, 5], [("time".toList, 2)], true)]
    ⟨"run".toList, npyStart, csvStart⟩ w1) (.ok ()) (by
      simp only [saveRun, saveUpdate, npySend, ht]
      rfl)
  exact ⟨_, w1, node', w2, plain_run, ⟨rfl, rfl, rfl⟩, fun _ => rfl, hw, h2, by simp⟩

/-- A field with a polygon as domain, stored and later stored again in the same directory. -/
example : ∃ node w1 w3, saveInit plainSaveLib "run".toList [("name".toList, 3)]
      (fieldGeometries (.single 9) .none [5] []) emptySaveWorld = (.ok node, w1) ∧
    saveRun plainSaveLib ([] : List (List ℕ × Dict ℕ × Bool)) node w1 = (.ok (), node, w1) ∧
    saveInit plainSaveLib "run".toList [("name".toList, 4)]
      (fieldGeometries (.single 9) .none [5] []) w1 = (.ok node, w3) :=
  ⟨⟨"run".toList, npyStart, csvStart⟩, _, _, rfl, rfl, rfl⟩

/-- A run that is ended by an exception: the file of the agents cannot be written. -/
example : ∃ node w1 node' w2, saveInit { plainSaveLib with writable := fun p => p.take 5 != "run/a".toList }
      "run".toList [("name".toList, 3)] (fieldGeometries .none .none [5] []) emptySaveWorld =
      (.ok node, w1) ∧
    saveRun { plainSaveLib with writable := fun p => p.take 5 != "run/a".toList }
      [([2, 5], [("time".toList, 2)], true), ([1, 4], [("time".toList, 1)], false)] node w1 =
        (.error .os, node', w2) := by
  have ht := template_path plainSaveLib.other plain_run.agents plain_run.noBraces
    ⟨by decide, by decide⟩
  obtain ⟨w1, hw⟩ : ∃ w1, saveInit { plainSaveLib with writable := fun p => p.take 5 != "run/a".toList }
      "run".toList [("name".toList, 3)] (fieldGeometries .none .none [5] []) emptySaveWorld =
        (.ok ⟨"run".toList, npyStart, csvStart⟩, w1) := ⟨_, rfl⟩
  obtain ⟨node', w2, h2⟩ := pair_exists (saveRun
    { plainSaveLib with writable := fun p => p.take 5 != "run/a".toList }
    [([2, 5], [("time".toList, 2)], true), ([1, 4], [("time".toList, 1)], false)]
    ⟨"run".toList, npyStart, csvStart⟩ w1) (.error .os) (by
      simp only [saveRun, saveUpdate, npySend, ht]
      rfl)
  exact ⟨_, w1, node', w2, hw, h2⟩

/-- Timestamps of simulations. -/
example : IsTimestamp "2017-06-01 12:30:45.123456+00:00".toList :=
  ⟨"2017-06-01".toList, "12:30:45.123456+00:00".toList, rfl, by decide, by decide, by decide,
    by decide⟩

end CrowdDynamics
