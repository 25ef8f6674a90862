import Verif.Py.Json
import Verif.Py.Monad
/-!
# Mutable Python objects

Dicts and lists are objects on a heap; a variable holds a reference.  `Denotes h v j` says that the value `v` reads as
the JSON value `j` in heap `h`.
-/

namespace Kasa.Heap

/-- A Python value: a scalar, or a reference to a dict or list object. -/
inductive Val where
  | null
  | bool (b : Bool)
  | num (n : Int)
  | str (s : String)
  | ref (a : Nat)
  deriving DecidableEq, Inhabited, Repr

/-- A mutable object. -/
inductive Obj where
  | list (xs : List Val)
  | dict (kvs : List (String × Val))
  deriving DecidableEq, Inhabited, Repr

/-- The objects that exist, by address; allocation appends. -/
abbrev Mem := List Obj

mutual
/-- In heap `h` the value `v` reads as the given JSON value, using only objects whose address satisfies `P`.  As in
every Python dict no key occurs twice. -/
def DenotesIn (P : Nat → Prop) (h : Mem) (v : Val) : Json → Prop
  | .null => v = .null
  | .bool b => v = .bool b
  | .num n => v = .num n
  | .str s => v = .str s
  | .arr js => ∃ a xs, v = .ref a ∧ P a ∧ h[a]? = some (.list xs) ∧ DenotesList P h xs js
  | .obj js => ∃ a kvs, v = .ref a ∧ P a ∧ h[a]? = some (.dict kvs) ∧ Dict.WF kvs ∧ DenotesKvs P h kvs js
def DenotesList (P : Nat → Prop) (h : Mem) (xs : List Val) : List Json → Prop
  | [] => xs = []
  | j :: js => ∃ x xs', xs = x :: xs' ∧ DenotesIn P h x j ∧ DenotesList P h xs' js
def DenotesKvs (P : Nat → Prop) (h : Mem) (kvs : List (String × Val)) : List (String × Json) → Prop
  | [] => kvs = []
  | (k, j) :: js => ∃ x kvs', kvs = (k, x) :: kvs' ∧ DenotesIn P h x j ∧ DenotesKvs P h kvs' js
end

/-- In heap `h` the value `v` reads as the given JSON value. -/
def Denotes (h : Mem) (v : Val) (j : Json) : Prop := DenotesIn (fun _ => True) h v j

/-- Create an object. -/
def alloc (o : Obj) : PyM Mem Val := fun h => (.ok (.ref h.length), h ++ [o])

/-- `d[k] = v` on the dict at address `a`. -/
def setItem (a : Nat) (k : String) (v : Val) : PyM Mem Unit := fun h =>
  match h[a]? with
  | some (.dict kvs) => (.ok (), h.set a (.dict (Dict.set kvs k v)))
  | _ => (.error (.other "TypeError"), h)

/-- The object a value refers to, if it is a reference. -/
def deref (h : Mem) : Val → Option Obj
  | .ref a => h[a]?
  | _ => none

/-- Everything that existed before is unchanged (new objects may exist). -/
def Extends (h h' : Mem) : Prop := ∀ a < h.length, h'[a]? = h[a]?

theorem Extends.refl (h : Mem) : Extends h h := fun _ _ => rfl

theorem Extends.get {h h' : Mem} (e : Extends h h') {a : Nat} {o : Obj} (ha : h[a]? = some o) : h'[a]? = some o := by
  rw [e a (by
    rcases Nat.lt_or_ge a h.length with hl | hl
    · exact hl
    · rw [List.getElem?_eq_none hl] at ha; cases ha), ha]

theorem Extends.length {h h' : Mem} (e : Extends h h') : h.length ≤ h'.length := by
  rcases Nat.lt_or_ge h'.length h.length with hl | hl
  · have := e h'.length hl
    rw [List.getElem?_eq_none (Nat.le_refl _), List.getElem?_eq_getElem hl] at this
    cases this
  · exact hl

theorem Extends.trans {a b c : Mem} (x : Extends a b) (y : Extends b c) : Extends a c := by
  intro n hn
  rw [y n (Nat.lt_of_lt_of_le hn x.length), x n hn]

theorem Extends.append (h t : Mem) : Extends h (h ++ t) := by
  intro a ha
  rw [List.getElem?_append_left ha]

theorem Extends.set {h h' : Mem} (e : Extends h h') {a : Nat} (ha : h.length ≤ a) (o : Obj) :
    Extends h (h'.set a o) := by
  intro n hn
  rw [List.getElem?_set_ne (by omega), e n hn]

mutual
/-- What a value reads as does not change when the objects it uses do not change. -/
theorem DenotesIn.mono {P P' : Nat → Prop} {h h' : Mem}
    (e : ∀ n o, P n → h[n]? = some o → P' n ∧ h'[n]? = some o) :
    ∀ {v : Val} {j : Json}, DenotesIn P h v j → DenotesIn P' h' v j
  | v, .null, d => by rw [DenotesIn] at *; exact d
  | v, .bool _, d => by rw [DenotesIn] at *; exact d
  | v, .num _, d => by rw [DenotesIn] at *; exact d
  | v, .str _, d => by rw [DenotesIn] at *; exact d
  | v, .arr js, d => by
    rw [DenotesIn] at *
    obtain ⟨a, xs, h1, h2, h3, h4⟩ := d
    exact ⟨a, xs, h1, (e _ _ h2 h3).1, (e _ _ h2 h3).2, DenotesList.mono e h4⟩
  | v, .obj js, d => by
    rw [DenotesIn] at *
    obtain ⟨a, xs, h1, h2, h3, h4, h5⟩ := d
    exact ⟨a, xs, h1, (e _ _ h2 h3).1, (e _ _ h2 h3).2, h4, DenotesKvs.mono e h5⟩
theorem DenotesList.mono {P P' : Nat → Prop} {h h' : Mem}
    (e : ∀ n o, P n → h[n]? = some o → P' n ∧ h'[n]? = some o) : ∀ {xs : List Val} {js : List Json},
    DenotesList P h xs js → DenotesList P' h' xs js
  | xs, [], d => by rw [DenotesList] at *; exact d
  | xs, j :: js, d => by
    rw [DenotesList] at *
    obtain ⟨x, xs', h1, h2, h3⟩ := d
    exact ⟨x, xs', h1, DenotesIn.mono e h2, DenotesList.mono e h3⟩
theorem DenotesKvs.mono {P P' : Nat → Prop} {h h' : Mem}
    (e : ∀ n o, P n → h[n]? = some o → P' n ∧ h'[n]? = some o) :
    ∀ {xs : List (String × Val)} {js : List (String × Json)}, DenotesKvs P h xs js → DenotesKvs P' h' xs js
  | xs, [], d => by rw [DenotesKvs] at *; exact d
  | xs, (k, j) :: js, d => by
    rw [DenotesKvs] at *
    obtain ⟨x, xs', h1, h2, h3⟩ := d
    exact ⟨x, xs', h1, DenotesIn.mono e h2, DenotesKvs.mono e h3⟩
end

theorem DenotesIn.ext {P : Nat → Prop} {h h' : Mem} (e : Extends h h') {v : Val} {j : Json}
    (d : DenotesIn P h v j) : DenotesIn P h' v j := d.mono fun _ _ hp ho => ⟨hp, e.get ho⟩

theorem DenotesList.ext {P : Nat → Prop} {h h' : Mem} (e : Extends h h') {v : List Val} {j : List Json}
    (d : DenotesList P h v j) : DenotesList P h' v j := d.mono fun _ _ hp ho => ⟨hp, e.get ho⟩

theorem DenotesKvs.ext {P : Nat → Prop} {h h' : Mem} (e : Extends h h') {v : List (String × Val)}
    {j : List (String × Json)} (d : DenotesKvs P h v j) : DenotesKvs P h' v j := d.mono fun _ _ hp ho => ⟨hp, e.get ho⟩

theorem DenotesKvs.keys {P : Nat → Prop} {h : Mem} : ∀ {xs : List (String × Val)} {js : List (String × Json)},
    DenotesKvs P h xs js → Dict.keys xs = Dict.keys js
  | xs, [], d => by rw [DenotesKvs] at d; rw [d]; rfl
  | xs, (k, j) :: js, d => by
    rw [DenotesKvs] at d
    obtain ⟨x, xs', h1, h2, h3⟩ := d
    rw [h1, Dict.keys_cons, Dict.keys_cons, h3.keys]

theorem deref_of_denotes {P : Nat → Prop} {h : Mem} {v : Val} {j : Json} (d : DenotesIn P h v j) :
    match j with
    | .arr js => ∃ xs, deref h v = some (.list xs) ∧ DenotesList P h xs js
    | .obj js => ∃ kvs, deref h v = some (.dict kvs) ∧ Dict.WF kvs ∧ DenotesKvs P h kvs js
    | _ => deref h v = none := by
  cases j <;> rw [DenotesIn] at d
  · subst d; rfl
  · subst d; rfl
  · subst d; rfl
  · subst d; rfl
  · obtain ⟨a, xs, h1, h2, h3, h4⟩ := d
    subst h1
    exact ⟨xs, h3, h4⟩
  · obtain ⟨a, xs, h1, h2, h3, h4, h5⟩ := d
    subst h1
    exact ⟨xs, h3, h4, h5⟩

end Kasa.Heap
