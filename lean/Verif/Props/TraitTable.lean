import Verif.Proofs.TraitTableCases
import Verif.Proofs.TraitTable

/-!
# C152, C153: tables of traits in the documentation
-/

namespace CrowdDynamics

open Spec

/-! ## C152: the table can be read back -/

/-- C152, full statement: every class with traits has a table, and it shows every trait. -/
def C152_statement : Prop :=
  ∀ (info : String × Trait → TraitInfo) (mro : List TraitClass),
    ∃ text, tableOfTraits info mro = .ok text ∧
      ∃ rows, ReadsAs text rows ∧ ShowsTraits info (inheritedTraits mro) rows

/-- **C152** What holds: if no default is a tuple and everything stays on one line, there is a table; it
can be read in exactly one way, namely as the headings and a row for each trait, with name, symbol,
default value and help as they are, whatever commas and quotes they contain. -/
theorem C152_table_partial (info : String × Trait → TraitInfo) (mro : List TraitClass)
    (h : ∀ t ∈ inheritedTraits mro, PlainTrait info t) :
    ∃ text, tableOfTraits info mro = .ok text ∧
      (∃ rows, ReadsAs text rows) ∧
      ∀ rows, ReadsAs text rows ↔ ShowsTraits info (inheritedTraits mro) rows := by
  obtain ⟨rows, e, hs, hr⟩ := traitRows_shows info (inheritedTraits mro) h
  have hread := table_reads (["name".toList, "symbol".toList, "default value".toList, "help".toList] :: rows)
    (by
      intro r hr'
      rw [List.mem_cons] at hr'
      rcases hr' with rfl | hr'
      · exact ⟨by simp, by unfold OneLine; decide⟩
      · exact hr r hr')
  refine ⟨_, ?_, ⟨_, hread⟩, fun rows' => ⟨fun h' => ?_, fun h' => ?_⟩⟩
  · simp only [tableOfTraits, classTraits_all, e]
    rfl
  · rw [readsAs_unique h' hread]
    exact ⟨rows, rfl, hs⟩
  · obtain ⟨rest, rfl, hs'⟩ := h'
    rw [showsTraits_unique hs' hs]
    exact hread

/-- **C152** In particular the three agent classes have tables that show all their traits. -/
theorem C152_agents_partial (mro : List TraitClass) (hm : mro ∈ [circularMro, threeCircleMro, capsuleMro]) :
    ∃ text, tableOfTraits shippedInfo mro = .ok text ∧
      ∃ rows, ReadsAs text rows ∧ ShowsTraits shippedInfo (inheritedTraits mro) rows := by
  obtain ⟨text, h1, ⟨rows, h2⟩, h3⟩ := C152_table_partial shippedInfo mro (shipped_plain mro hm)
  exact ⟨text, h1, rows, h2, (h3 rows).mp h2⟩

/-- **C152** The names in the tables, by class: states, body type, body, translational and, for the last two,
rotational motion; the traits that a class defines itself come first. -/
theorem C152_names_partial :
    let states := ["active", "target_reached", "target", "is_leader", "is_follower", "index_leader",
      "familiar_exit"]
    let bodyType := ["body_type", "body_types", "ratio_rt", "ratio_rs", "ratio_ts", "radius_mean", "radius_scale",
      "target_velocity_mean", "target_velocity_scale", "mass_mean", "mass_scale"]
    let body := ["radius", "r_t", "r_s", "r_ts", "mass", "inertia_rot", "target_velocity",
      "target_angular_velocity"]
    let translational := ["position", "velocity", "target_direction", "force", "force_prev", "tau_adj", "k_soc",
      "tau_0", "mu", "kappa", "damping", "std_rand_force"]
    let rotational := ["orientation", "angular_velocity", "target_orientation", "torque", "torque_prev", "tau_rot",
      "std_rand_torque"]
    let common := states ++ bodyType ++ body ++ translational
    ∀ c ∈ [(circularMro, common), (threeCircleMro, ["position_ls", "position_rs"] ++ common ++ rotational),
        (capsuleMro, common ++ rotational)],
      ∃ text, tableOfTraits shippedInfo c.1 = .ok text ∧ ∀ rows, ReadsAs text rows →
        rows.tail.map List.head? = c.2.map fun s => some ("``" ++ s ++ "``").toList := by
  intro states bodyType body translational rotational common c hc
  have hm : c.1 ∈ [circularMro, threeCircleMro, capsuleMro] := by
    simp only [List.mem_cons, List.not_mem_nil, or_false] at hc
    rcases hc with rfl | rfl | rfl <;> simp
  obtain ⟨text, h1, -, h3⟩ := C152_table_partial shippedInfo c.1 (shipped_plain c.1 hm)
  refine ⟨text, h1, fun rows hr => ?_⟩
  obtain ⟨rest, rfl, h4⟩ := (h3 rows).1 hr
  have h5 : (inheritedTraits c.1).map Prod.fst = c.2 ∧ ∀ s ∈ c.2, s.toList ≠ [] := by
    simp only [List.mem_cons, List.not_mem_nil, or_false] at hc
    rcases hc with rfl | rfl | rfl <;> exact ⟨by decide +kernel, by decide +kernel⟩
  rw [List.tail_cons, ← h5.1]
  have h6 : ∀ t ∈ inheritedTraits c.1, t.1.toList ≠ [] := fun t ht =>
    h5.2 _ (by rw [← h5.1]; exact List.mem_map_of_mem ht)
  clear h1 h3 hr h5 hm hc
  generalize inheritedTraits c.1 = l at h4 h6 ⊢
  induction h4 with
  | nil => rfl
  | cons a b ih =>
    rw [List.map_cons, List.map_cons, List.map_cons, ih fun t ht => h6 t (List.mem_cons_of_mem _ ht)]
    congr 1
    have := h6 _ List.mem_cons_self
    unfold ShowsTrait at a
    split at a
    · rcases a.1 with ⟨e, -⟩ | ⟨-, e⟩
      · exact absurd e this
      · simp [e]
    · exact a.elim

/-- A class with a single trait. -/
def taggedClass : List TraitClass := [⟨"Tagged", true, [("tag", .unicode), ("method", .notTrait)]⟩]

/-- Its trait, with commas and quotes. -/
def taggedInfo : String × Trait → TraitInfo := fun _ =>
  ⟨none, .str "a, b".toList, "A \"tag\", or none".toList⟩

example : ∃ text, tableOfTraits taggedInfo taggedClass = .ok text ∧
    ∀ rows, ReadsAs text rows → rows = [["name".toList, "symbol".toList, "default value".toList,
      "help".toList], ["``tag``".toList, [], "``a, b``".toList, "A \"tag\", or none".toList]] := by
  have hi : inheritedTraits taggedClass = [("tag", .unicode)] := rfl
  obtain ⟨text, h1, -, h2⟩ := C152_table_partial taggedInfo taggedClass (by
    rw [hi]
    intro t ht
    rw [List.mem_singleton] at ht
    subst ht
    exact plainInfo_iff _ _ (by decide +kernel))
  refine ⟨text, h1, fun rows h => ?_⟩
  obtain ⟨rest, rfl, h3⟩ := (h2 rows).mp h
  rw [hi] at h3
  cases h3 with
  | cons a b =>
    cases b
    rw [showsTrait_unique a (show ShowsTrait taggedInfo ("tag", .unicode)
      ["``tag``".toList, [], "``a, b``".toList, "A \"tag\", or none".toList] from
      ⟨.inr ⟨by decide, by decide⟩, .inl ⟨.inl rfl, rfl⟩, .inr ⟨by decide, by decide⟩, rfl⟩)]

/-- The text itself. -/
example : tableOfTraits taggedInfo taggedClass = .ok ("\n.. csv-table:: Traits\n   :header-rows: 1\n\n" ++
    "   name,symbol,default value,help\r\n" ++
    "   ``tag``,,\"``a, b``\",\"A \"\"tag\"\", or none\"\r\n").toList := by
  decide +kernel

/-- A class with a trait of type `Tuple`. -/
def pairClass : List TraitClass := [⟨"Pair", true, [("pair", .tuple [.bool, .bool])]⟩]

/-- Its trait. -/
def pairInfo : String × Trait → TraitInfo := fun _ => ⟨none, .tuple ["True".toList, "False".toList], []⟩

/-- **C152** fails: a trait whose default is a tuple makes `table_of_traits` raise a `TypeError`, since the
tuple is taken as the arguments of the operator `%`. -/
theorem C152_fails : ¬ C152_statement := by
  intro h
  obtain ⟨text, h1, -⟩ := h pairInfo pairClass
  have : tableOfTraits pairInfo pairClass = .error .type := rfl
  rw [this] at h1
  cases h1

/-! ## C153: docstrings -/

/-- C153, full statement: wherever a docstring contains the key, its value is inserted and the rest of the
docstring is kept. -/
def C153_statement : Prop :=
  ∀ (other : Text → Except PyErr Text) (pre post value : Text),
    interpolateDocstring [("key".toList, (.str value : Substitution Unit))] other ()
      (some (pre ++ "%(key)s".toList ++ post)) = .ok (pre ++ value ++ post)

/-- **C153** What holds: a docstring made of text without percent signs, doubled percent signs and keys
becomes the same text with the values of the keys, which are computed from the class if they are
functions; percent signs in the values play no role. If a key has no value, a `KeyError` is raised. -/
theorem C153_docstring_partial {C : Type} (cls : C) (subs : List (Text × Substitution C)) (value : Text → Text)
    (hv : ∀ e ∈ subs, e.2.value cls = .ok (value e.1)) (other : Text → Except PyErr Text)
    (ps : List Piece) (hp : ∀ p ∈ ps, p.Proper) :
    (∀ ts, ps.mapM (Piece.becomes fun k => if k ∈ subs.map Prod.fst then some (value k) else none) = some ts →
      interpolateDocstring subs other cls (some (ps.flatMap Piece.source)) = .ok ts.flatten) ∧
    (∀ k, .key k ∈ ps → k ∉ subs.map Prod.fst →
      interpolateDocstring subs other cls (some (ps.flatMap Piece.source)) = .error .key) := by
  obtain ⟨values, h1, h2⟩ := substitution_values cls subs value hv
  have hmap : (fun k => values.lookup k) = fun k =>
      if k ∈ subs.map Prod.fst then some (value k) else none := funext h2
  have hred : interpolateDocstring subs other cls (some (ps.flatMap Piece.source)) =
      percentFormat (fun k => values.lookup k) other (ps.flatMap Piece.source) := by
    simp only [interpolateDocstring, h1]
    rfl
  rw [hred, hmap]
  obtain ⟨f1, f2⟩ := format_pieces (fun k => if k ∈ subs.map Prod.fst then some (value k) else none)
    other ps hp
  refine ⟨f1, fun k hk hn => f2 ?_⟩
  clear f1 f2 hred hp
  induction ps with
  | nil => simp at hk
  | cons p ps ih =>
    rw [List.mem_cons] at hk
    rw [List.mapM_cons]
    rcases hk with rfl | hk
    · simp [Piece.becomes, hn]
    · rw [ih hk]
      cases Piece.becomes (fun k => if k ∈ subs.map Prod.fst then some (value k) else none) p <;> rfl

/-- **C153** The docstrings of the three agent classes (text, key, text) become the text with the table
of C152 in place of the key. -/
theorem C153_agents_partial (mro : List TraitClass) (hm : mro ∈ [circularMro, threeCircleMro, capsuleMro])
    (other : Text → Except PyErr Text) (pre post : Text) (h1 : '%' ∉ pre) (h2 : '%' ∉ post) :
    ∃ table, tableOfTraits shippedInfo mro = .ok table ∧
      interpolateDocstring [("table_of_traits".toList, .callable (tableOfTraits shippedInfo))] other mro
        (some (pre ++ "%(table_of_traits)s".toList ++ post)) = .ok (pre ++ table ++ post) := by
  obtain ⟨table, ht, -⟩ := C152_agents_partial mro hm
  refine ⟨table, ht, ?_⟩
  have := (C153_docstring_partial mro [("table_of_traits".toList, .callable (tableOfTraits shippedInfo))]
    (fun _ => table) (by simp [Substitution.value, ht]) other
    [.text pre, .key "table_of_traits".toList, .text post] (by
      intro p hp
      simp only [List.mem_cons, List.not_mem_nil, or_false] at hp
      rcases hp with rfl | rfl | rfl
      · exact h1
      · exact ⟨by decide, by decide⟩
      · exact h2)).1 [pre, table, post] (by simp [List.mapM_cons, Piece.becomes])
  have e1 : [Piece.text pre, .key "table_of_traits".toList, .text post].flatMap Piece.source =
      pre ++ "%(table_of_traits)s".toList ++ post := by
    simp [Piece.source]
  rw [e1] at this
  rw [this]
  simp

/-- The docstring of `Circular`, shortened. -/
example : ∃ table, tableOfTraits shippedInfo circularMro = .ok table ∧
    interpolateDocstring [("table_of_traits".toList, .callable (tableOfTraits shippedInfo))]
      (fun _ => .error .other) circularMro
      (some ("Circular agent type\n\n    ".toList ++ "%(table_of_traits)s".toList ++ "\n    ".toList)) =
      .ok ("Circular agent type\n\n    ".toList ++ table ++ "\n    ".toList) :=
  C153_agents_partial circularMro (by simp) _ _ _ (by decide) (by decide)

/-- A docstring with doubled percent signs and a key of which no value is given. -/
example : interpolateDocstring [("name".toList, (.callable fun c => .ok c : Substitution Text))]
      (fun _ => .error .other) "Foo%".toList (some "100%% %(name)s".toList) = .ok "100% Foo%".toList ∧
    interpolateDocstring [("name".toList, (.callable fun c => .ok c : Substitution Text))]
      (fun _ => .error .other) "Foo%".toList (some "%(title)s".toList) = .error .key := by
  have h := fun ps => C153_docstring_partial "Foo%".toList
    [("name".toList, (.callable fun c => .ok c : Substitution Text))] (fun _ => "Foo%".toList)
    (by simp [Substitution.value]) (fun _ => .error .other) ps
  have h1 := (h [.text "100".toList, .percent, .text " ".toList, .key "name".toList] (by
    intro p hp
    simp only [List.mem_cons, List.not_mem_nil, or_false] at hp
    rcases hp with rfl | rfl | rfl | rfl
    · exact (by decide : '%' ∉ "100".toList)
    · trivial
    · exact (by decide : '%' ∉ " ".toList)
    · exact ⟨by decide, by decide⟩)).1 ["100".toList, ['%'], " ".toList, "Foo%".toList] (by
      simp [List.mapM_cons, Piece.becomes])
  have h2 := (h [.key "title".toList] (by
    intro p hp
    rw [List.mem_singleton] at hp
    subst hp
    exact ⟨by decide, by decide⟩)).2 "title".toList (by simp) (by decide)
  exact ⟨h1, h2⟩

/-- **C153** fails: a percent sign in the rest of the docstring is an error. -/
theorem C153_fails : ¬ C153_statement := by
  intro h
  have := h (fun _ => .error .other) [] "%".toList []
  rw [show interpolateDocstring [("key".toList, (.str [] : Substitution Unit))] (fun _ => .error .other) ()
      (some ([] ++ "%(key)s".toList ++ "%".toList)) = percentFormat
        (fun k => [("key".toList, ([] : Text))].lookup k) (fun _ => .error .other)
        (['%', '('] ++ "key".toList ++ [')', 's'] ++ ['%']) from rfl,
    format_key _ _ _ _ (by decide) (by decide)] at this
  rw [show [("key".toList, ([] : Text))].lookup "key".toList = some [] by decide,
    show percentFormat (fun k => [("key".toList, ([] : Text))].lookup k) (fun _ => .error .other) ['%'] =
      .error .value by rw [percentFormat]] at this
  cases this

/-- **C153** A class without a docstring cannot be decorated either: a `TypeError` is raised. -/
theorem C153_undocumented_partial {C : Type} (cls : C) (subs : List (Text × Substitution C)) (value : Text → Text)
    (hv : ∀ e ∈ subs, e.2.value cls = .ok (value e.1)) (other : Text → Except PyErr Text) :
    interpolateDocstring subs other cls none = .error .type := by
  obtain ⟨values, h1, -⟩ := substitution_values cls subs value hv
  simp only [interpolateDocstring, h1]
  rfl

example : interpolateDocstring [("key".toList, (.str [] : Substitution Unit))] (fun _ => .error .other) ()
    none = .error .type :=
  C153_undocumented_partial () _ (fun _ => []) (by simp [Substitution.value]) _

end CrowdDynamics
