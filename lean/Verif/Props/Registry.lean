import Verif.Spec.Registry
import Mathlib.Data.List.Basic
import Mathlib.Data.List.Nodup
import Mathlib.Logic.Function.Basic
import Mathlib.Tactic.Common
/-!
C196: selecting a model of the wind by name.
-/
namespace Tcrm.Registry
open Spec

theorem mem_allOf {d : Cls} : ∀ l : List Cls, d ∈ allOf l ↔ ∃ s ∈ l, d ∈ allSubclasses s
  | [] => by simp [allOf]
  | s :: r => by rw [allOf, List.mem_append, mem_allOf r]; simp

theorem mem_all : ∀ (c d : Cls), d ∈ allSubclasses c ↔ Derived c d
  | .mk n a subs, d => by
    rw [allSubclasses, List.mem_append, mem_allOf]
    constructor
    · rintro (h | ⟨s, hs, h⟩)
      · exact Derived.direct h
      · have := List.sizeOf_lt_of_mem hs
        exact Derived.further hs ((mem_all s d).1 h)
    · intro h
      cases h with
      | direct h => exact Or.inl h
      | further hs h =>
        have hs' : _ ∈ subs := hs
        have := List.sizeOf_lt_of_mem hs'
        exact Or.inr ⟨_, hs, (mem_all _ d).2 h⟩
termination_by c => sizeOf c
decreasing_by
  all_goals
    simp only [Cls.mk.sizeOf_spec]
    omega

/-- C196: the classes that can be selected are those derived from the base class, at any depth. -/
theorem C196_discovered (pat : Text) (base : Cls) (name : Text) :
    (∃ c, find pat base name = some c) ↔ ∃ c, Derived base c ∧ key pat c = name := by
  constructor
  · rintro ⟨c, h⟩
    refine ⟨c, (mem_all _ _).1 (List.mem_reverse.1 (List.mem_of_find?_eq_some h)), ?_⟩
    simpa using List.find?_some h
  · rintro ⟨c, h, hk⟩
    have : ((allSubclasses base).reverse.find? fun c => key pat c == name).isSome := by
      rw [List.find?_isSome]
      exact ⟨c, List.mem_reverse.2 ((mem_all _ _).2 h), by simp [hk]⟩
    exact Option.isSome_iff_exists.1 this

/-- C196: if no two derived classes have the same name, a name selects the class of that name and no other. -/
theorem C196_selected {pat : Text} {base : Cls}
    (h : ∀ c d, Derived base c → Derived base d → key pat c = key pat d → c = d) (name : Text) (c : Cls) :
    find pat base name = some c ↔ Derived base c ∧ key pat c = name := by
  constructor
  · intro h
    refine ⟨(mem_all _ _).1 (List.mem_reverse.1 (List.mem_of_find?_eq_some h)), ?_⟩
    simpa using List.find?_some h
  · rintro ⟨hc, hk⟩
    obtain ⟨d, hd⟩ := (C196_discovered pat base name).2 ⟨c, hc, hk⟩
    rw [hd]
    congr 1
    refine h d c ((mem_all _ _).1 (List.mem_reverse.1 (List.mem_of_find?_eq_some hd))) hc ?_
    have : key pat d = name := by simpa using List.find?_some hd
    rw [this, hk]

theorem removeFrom_drop {pat : Text} : ∀ (k : Nat) (s : Text), removeFrom pat k s = removeFrom pat 0 (s.drop k)
  | 0, s => by simp
  | k + 1, [] => by simp [removeFrom]
  | k + 1, c :: cs => by rw [removeFrom, removeFrom_drop k cs, List.drop_succ_cons]

theorem remove_append {pat : Text} (hp : pat ≠ []) : ∀ x : Text,
    (∀ k < x.length, ¬ pat <+: (x ++ pat).drop k) → remove pat (x ++ pat) = x
  | [], _ => by
    unfold remove
    obtain ⟨c, cs, rfl⟩ := List.exists_cons_of_ne_nil hp
    rw [List.nil_append, removeFrom, if_pos (by simp), removeFrom_drop]
    simp [removeFrom]
  | c :: cs, h => by
    have ih := remove_append hp cs fun k hk => by simpa using h (k + 1) (by simpa using hk)
    unfold remove at ih ⊢
    rw [List.cons_append, removeFrom, if_neg ?_, ih]
    intro e
    rw [List.isPrefixOf_iff_prefix] at e
    exact h 0 (by simp) (by simpa using e)

/-- C196: the name of a class is what stands before the common ending, in lower case (if the ending stands nowhere else). -/
theorem C196_name {pat x : Text} (hp : pat ≠ []) (h : ∀ k < x.length, ¬ pat <+: (x ++ pat).drop k) {c : Cls}
    (hc : c.name = x ++ pat) : key pat c = x.map Char.toLower := by
  unfold key
  rw [hc, remove_append hp x h]

/-- The arguments that get their value from the track -/
def own (std : List String) (has : String → Bool) (p : String) : Bool := !std.contains p && has p

theorem bind_none {V : Type} : ∀ (args : List (String × Bool)), (∀ a ∈ args, a.2 = true) →
    bind (V := V) args [] = .ok (args.map fun a => (a.1, none))
  | [], _ => rfl
  | (a, d) :: args, h => by
    have hd : d = true := h (a, d) (by simp)
    rw [bind, if_pos hd, bind_none args fun x hx => h x (List.mem_cons_of_mem _ hx)]
    rfl

theorem bind_default {V : Type} : ∀ (args : List (String × Bool)) (l : List (String × Option V)),
    bind args [] = .ok l → ∀ a ∈ args, a.2 = true
  | [], _, _, a, ha => by simp at ha
  | (a, d) :: args, l, h, b, hb => by
    rw [bind] at h
    split_ifs at h with hd
    cases hr : bind (V := V) args [] with
    | error e => rw [hr] at h; simp [Except.map] at h
    | ok r =>
      rcases List.mem_cons.1 hb with rfl | hb
      · exact hd
      · exact bind_default args r hr b hb

theorem bind_own {V : Type} {q : String → Bool} {value : String → V} : ∀ (o r : List (String × Bool)),
    (∀ a ∈ o, q a.1 = true) → (∀ a ∈ r, q a.1 = false ∧ a.2 = true) →
    bind (o ++ r) ((((o ++ r).map (·.1)).filter q).map value) =
      .ok (o.map (fun a => (a.1, some (value a.1))) ++ r.map fun a => (a.1, none))
  | [], r, _, hr => by
    have : (r.map (·.1)).filter q = [] := by
      rw [List.filter_eq_nil_iff]
      intro a ha
      obtain ⟨b, hb, rfl⟩ := List.mem_map.1 ha
      simp [(hr b hb).1]
    rw [List.nil_append, this, List.map_nil, bind_none r fun a ha => (hr a ha).2]
    rfl
  | (a, d) :: o, r, ho, hr => by
    have ha : q a = true := ho (a, d) (by simp)
    rw [List.cons_append, List.map_cons, List.filter_cons_of_pos (by simpa using ha), List.map_cons, bind,
      bind_own o r (fun x hx => ho x (List.mem_cons_of_mem _ hx)) hr]
    rfl

theorem values_eq {V : Type} {std : List String} {has : String → Bool} {value : String → V} {c : Cls} :
    create std has value c = bind c.args (((c.args.map (·.1)).filter (own std has)).map value) := by
  unfold create
  simp only
  rw [List.filter_filter]
  congr 3
  funext p
  unfold own
  exact Bool.and_comm _ _

theorem bind_right {V : Type} {q : String → Bool} {value : String → V} (hv : Function.Injective value) :
    ∀ (args : List (String × Bool)) (l : List (String × Option V)),
    bind args (((args.map (·.1)).filter q).map value) = .ok l → (∀ a v, (a, some v) ∈ l → v = value a) →
    Leading (fun p => q p = true) args
  | [], _, _, _ => ⟨[], [], rfl, by simp, by simp⟩
  | (a, d) :: args, l, h, hl => by
    by_cases ha : q a = true
    · rw [List.map_cons, List.filter_cons_of_pos (by simpa using ha), List.map_cons, bind] at h
      cases hr : bind args (((args.map (·.1)).filter q).map value) with
      | error e => rw [hr] at h; simp [Except.map] at h
      | ok r =>
        rw [hr] at h
        have h : (a, some (value a)) :: r = l := by simpa [Except.map] using h
        obtain ⟨o, t, e, h1, h2⟩ := bind_right hv args r hr fun x v hx => hl x v (by rw [← h]; simp [hx])
        refine ⟨(a, d) :: o, t, by rw [e]; rfl, ?_, h2⟩
        intro b hb
        rcases List.mem_cons.1 hb with rfl | hb
        · exact ha
        · exact h1 b hb
    · rw [List.map_cons, List.filter_cons_of_neg (by simpa using ha)] at h
      cases hf : (args.map (·.1)).filter q with
      | nil =>
        rw [hf, List.map_nil] at h
        refine ⟨[], (a, d) :: args, rfl, by simp, ?_⟩
        intro b hb
        refine ⟨?_, bind_default _ l h b hb⟩
        rcases List.mem_cons.1 hb with rfl | hb
        · exact ha
        · rw [List.filter_eq_nil_iff] at hf
          exact hf b.1 (List.mem_map_of_mem hb)
      | cons y ys =>
        rw [hf, List.map_cons, bind] at h
        cases hr : bind args (ys.map value) with
        | error e => rw [hr] at h; simp [Except.map] at h
        | ok r =>
          rw [hr] at h
          have h : (a, some (value y)) :: r = l := by simpa [Except.map] using h
          have hy : q y = true := (List.mem_filter.1 (by rw [hf]; simp : y ∈ (args.map (·.1)).filter q)).2
          have := hv (hl a (value y) (by rw [← h]; simp))
          rw [this] at hy
          exact absurd hy ha

/-- C196: a class gets the settings of the track for its arguments, each for its own, exactly if it declares them before
those the track has no settings for and these have defaults. -/
theorem C196_arguments {V : Type} {std : List String} {has : String → Bool} {value : String → V}
    (hv : Function.Injective value) (c : Cls) :
    (∃ l, create std has value c = .ok l ∧ (∀ a v, (a, some v) ∈ l → v = value a)) ↔
      Leading (fun p => p ∉ std ∧ has p = true) c.args := by
  have hq : ∀ p, own std has p = true ↔ p ∉ std ∧ has p = true := by
    intro p
    unfold own
    simp
  rw [values_eq]
  constructor
  · rintro ⟨l, h, hl⟩
    obtain ⟨o, r, e, h1, h2⟩ := bind_right hv _ l h hl
    exact ⟨o, r, e, fun a ha => (hq _).1 (h1 a ha), fun a ha => ⟨fun e => (h2 a ha).1 ((hq _).2 e), (h2 a ha).2⟩⟩
  · rintro ⟨o, r, e, h1, h2⟩
    rw [e, bind_own o r (fun a ha => (hq _).2 (h1 a ha))
      fun a ha => ⟨Bool.eq_false_iff.2 fun h => (h2 a ha).1 ((hq _).1 h), (h2 a ha).2⟩]
    refine ⟨_, rfl, ?_⟩
    intro a v hav
    rcases List.mem_append.1 hav with h | h
    · obtain ⟨b, -, hb⟩ := List.mem_map.1 h
      simp only [Prod.mk.injEq, Option.some.injEq] at hb
      rw [← hb.2, ← hb.1]
    · obtain ⟨b, -, hb⟩ := List.mem_map.1 h
      simp at hb

/-- C196: then it gets the settings for all its arguments, and the defaults for the others. -/
theorem C196_values {V : Type} {std : List String} {has : String → Bool} {value : String → V} {c : Cls}
    (h : Leading (fun p => p ∉ std ∧ has p = true) c.args) :
    create std has value c = .ok (c.args.map fun a =>
      (a.1, if a.1 ∉ std ∧ has a.1 = true then some (value a.1) else none)) := by
  have hq : ∀ p, own std has p = true ↔ p ∉ std ∧ has p = true := by
    intro p
    unfold own
    simp
  obtain ⟨o, r, e, h1, h2⟩ := h
  rw [values_eq, e, bind_own o r (fun a ha => (hq _).2 (h1 a ha))
    fun a ha => ⟨Bool.eq_false_iff.2 fun h => (h2 a ha).1 ((hq _).1 h), (h2 a ha).2⟩, List.map_append]
  congr 2
  · exact List.map_congr_left fun a ha => by rw [if_pos (h1 a ha)]
  · exact List.map_congr_left fun a ha => by rw [if_neg (h2 a ha).1]

/-- C196: the profiles of the package: the names to be used in the configuration and the arguments of the classes found
are those of `Selection.constructors`, for every name. -/
theorem C196_profiles (name : String) :
    (find "WindProfile".toList profiles name.toList).map (fun c => c.args.filter fun a => a.1 ∉ profileStd) =
      Selection.constructors.lookup name := by
  have hl : ∀ (l : List Cls), (l.find? fun c => key "WindProfile".toList c == name.toList).map
      (fun c => c.args.filter fun a => a.1 ∉ profileStd) =
      (l.map fun c => (key "WindProfile".toList c, c.args.filter fun a => a.1 ∉ profileStd)).lookup name.toList := by
    intro l
    induction l with
    | nil => rfl
    | cons c l ih =>
      rw [List.map_cons, List.lookup_cons, List.find?_cons]
      by_cases h : key "WindProfile".toList c = name.toList
      · rw [h]
        simp
      · have h' : (name.toList == key "WindProfile".toList c) = false := by simpa using Ne.symm h
        have h'' : (key "WindProfile".toList c == name.toList) = false := by simpa using h
        rw [h', h'', ih]
  unfold find
  rw [hl]
  have e : (allSubclasses profiles).reverse.map
      (fun c => (key "WindProfile".toList c, c.args.filter fun a => a.1 ∉ profileStd)) = [
      ("powell".toList, []), ("schloemer".toList, []), ("willoughby".toList, []),
      ("newholland".toList, [("rGale", true)]),
      ("doubleholland".toList, [("beta1", false), ("beta2", false), ("rMax2", true)]), ("rankine".toList, []),
      ("holland".toList, [("beta", false)]), ("jelesnianski".toList, [])] := by decide +kernel
  rw [e]
  by_cases h : name ∈ Selection.constructors.map (·.1)
  · have : ∀ n ∈ Selection.constructors.map (·.1), List.lookup n.toList [
      ("powell".toList, []), ("schloemer".toList, []), ("willoughby".toList, []),
      ("newholland".toList, [("rGale", true)]),
      ("doubleholland".toList, [("beta1", false), ("beta2", false), ("rMax2", true)]), ("rankine".toList, []),
      ("holland".toList, [("beta", false)]), ("jelesnianski".toList, [])] = Selection.constructors.lookup n := by
      decide +kernel
    exact this name h
  · have h2 : Selection.constructors.lookup name = none := by
      rw [List.lookup_eq_none_iff]
      intro p hp
      rw [bne_iff_ne]
      rintro rfl
      exact h (List.mem_map_of_mem hp)
    rw [h2, List.lookup_eq_none_iff]
    have hk : ∀ p ∈ ([
      ("powell".toList, []), ("schloemer".toList, []), ("willoughby".toList, []),
      ("newholland".toList, [("rGale", true)]),
      ("doubleholland".toList, [("beta1", false), ("beta2", false), ("rMax2", true)]), ("rankine".toList, []),
      ("holland".toList, [("beta", false)]), ("jelesnianski".toList, [])] : List (List Char × List (String × Bool))),
        ∃ n ∈ Selection.constructors.map (·.1), n.toList = p.1 := by decide +kernel
    intro p hp
    obtain ⟨n, hn, e⟩ := hk p hp
    rw [bne_iff_ne]
    intro hne
    rw [← e, String.toList_inj] at hne
    exact h (hne ▸ hn)

/-- C196: no two profiles and no two boundary layers of the package have the same name, and all profiles declare their
arguments in a suitable order for the settings `beta`, `beta1` and `beta2` of the track. -/
theorem C196_package :
    (∀ c d, Derived profiles c → Derived profiles d → key "WindProfile".toList c = key "WindProfile".toList d → c = d) ∧
    (∀ c d, Derived fields c → Derived fields d → key "WindField".toList c = key "WindField".toList d → c = d) ∧
    (∀ c, Derived profiles c → Leading (fun p => p ∉ profileStd ∧ Selection.attributes.contains p = true) c.args) := by
  refine ⟨?_, ?_, ?_⟩
  · intro c d hc hd h
    have hn : ((allSubclasses profiles).map (key "WindProfile".toList)).Nodup := by decide +kernel
    exact List.inj_on_of_nodup_map hn ((mem_all _ _).2 hc) ((mem_all _ _).2 hd) h
  · intro c d hc hd h
    have hn : ((allSubclasses fields).map (key "WindField".toList)).Nodup := by decide +kernel
    exact List.inj_on_of_nodup_map hn ((mem_all _ _).2 hc) ((mem_all _ _).2 hd) h
  · intro c hc
    have : ∀ a ∈ (allSubclasses profiles).map Cls.args, ∃ k ∈ List.range 5,
        (∀ x ∈ a.take k, x.1 ∉ profileStd ∧ Selection.attributes.contains x.1 = true) ∧
        ∀ x ∈ a.drop k, ¬ (x.1 ∉ profileStd ∧ Selection.attributes.contains x.1 = true) ∧ x.2 = true := by
      decide +kernel
    obtain ⟨k, -, h1, h2⟩ := this c.args (List.mem_map_of_mem ((mem_all _ _).2 hc))
    exact ⟨c.args.take k, c.args.drop k, (List.take_append_drop k _).symm, h1, h2⟩

/-- `doubleholland` is selected by its name, and gets `beta1` and `beta2` but keeps its second radius. -/
example : (find "WindProfile".toList profiles "doubleholland".toList).map Cls.name =
      some "DoubleHollandWindProfile".toList ∧
    (find "WindProfile".toList profiles "doubleholland".toList).map
      (fun c => (create profileStd (Selection.attributes.contains ·) id c).toOption) =
      some (some [("beta1", some "beta1"), ("beta2", some "beta2"), ("rMax2", none), ("windSpeedModel", none)]) ∧
    (find "WindProfile".toList profiles "Holland".toList).map Cls.name = none := by decide +kernel

/-- A profile that declares an optional argument before `beta` gets `beta` for it. -/
example : (create profileStd (Selection.attributes.contains ·) id
      (.mk "GreyWindProfile".toList [("rGale", true), ("beta", true)] [])).toOption =
    some [("rGale", some "beta"), ("beta", none)] := by decide +kernel

end Tcrm.Registry
