import Verif.Go

/-!
# Key sets of mkrlwe/keys.go

The payload of the keys is irrelevant here, so the key types are parameters; `idOf`
reads the `ID` field.
-/

namespace MK

/-- `SecretKeySet`, `PublicKeySet` and `ConjugationKeySet` (mkrlwe/keys.go 12-14, 28-30,
64-66) are all `struct { Value map[string]*Key }`. -/
structure KeySet (κ : Type _) where
  value : GoMap String κ

namespace KeySet

variable {κ : Type _}

/-- `NewSecretKeySet`, `NewPublicKeyKeySet`, `NewConjugationKeySet`
(mkrlwe/keys.go 69-73, 97-101, 201-205). -/
def new : KeySet κ := ⟨GoMap.empty⟩

/-- `AddSecretKey`, `AddPublicKey`, `AddConjugationKey` (mkrlwe/keys.go 76-78, 104-106,
208-210): `set.Value[k.ID] = k`. -/
def add (idOf : κ → String) (s : KeySet κ) (k : κ) : KeySet κ := ⟨s.value.set (idOf k) k⟩

/-- `DelSecretKey`, `DelPublicKey`, `DelConjugationKey` (mkrlwe/keys.go 81-83, 109-111,
213-215). -/
def del (s : KeySet κ) (id : String) : KeySet κ := ⟨s.value.del id⟩

/-- `GetSecretKey`, `GetPublicKey`, `GetConjugationKey` (mkrlwe/keys.go 86-93, 114-122,
218-226). -/
def get (s : KeySet κ) (id : String) : Go κ :=
  match s.value.get? id with
  | some k => .ok k
  | none => .error (.msg "there is no key with given id")

end KeySet

/-- `RotationKeySet` (mkrlwe/keys.go 59-61): `map[string]map[uint]*RotationKey`. -/
structure RotationKeySet (κ : Type _) where
  value : GoMap String (GoMap ℕ κ)

namespace RotationKeySet

variable {κ : Type _}

/-- `NewRotationKeySet` (mkrlwe/keys.go 125-130). -/
def new : RotationKeySet κ := ⟨GoMap.empty⟩

/-- `AddRotationKey` (mkrlwe/keys.go 133-143). -/
def add (idOf : κ → String) (rotIdx : κ → ℕ) (s : RotationKeySet κ) (k : κ) :
    RotationKeySet κ :=
  let v := if s.value.has (idOf k) then s.value else s.value.set (idOf k) GoMap.empty
  match v.get? (idOf k) with
  | some inner => ⟨v.set (idOf k) (inner.set (rotIdx k) k)⟩
  | none => ⟨v⟩  -- unreachable: the entry was just created

/-- `DelRotationKey` (mkrlwe/keys.go 146-148): `delete` on the inner map; deleting from a
nil map is a no-op in Go. -/
def del (s : RotationKeySet κ) (id : String) (r : ℕ) : RotationKeySet κ :=
  match s.value.get? id with
  | some inner => ⟨s.value.set id (inner.del r)⟩
  | none => s

/-- `GetRotationKey` (mkrlwe/keys.go 151-162). -/
def get (s : RotationKeySet κ) (id : String) (r : ℕ) : Go κ :=
  match s.value.get? id with
  | none => .error (.msg "cannot GetRotationKeys: there is no rotation key with given id")
  | some inner =>
    match inner.get? r with
    | none => .error (.msg "cannot GetRotationKeys: there is no rotation key with given id")
    | some k => .ok k

end RotationKeySet

/-- `RelinearizationKeySet` (mkrlwe/keys.go 52-56); `η` is the type of hoisting scratch
space (`*SwitchingKey`). -/
structure RelinKeySet (κ η : Type _) where
  value : GoMap String κ
  pool0 : GoMap String η
  pool1 : GoMap String η

namespace RelinKeySet

variable {κ η : Type _}

/-- `NewRelinearizationKeyKeySet` (mkrlwe/keys.go 165-175). -/
def new : RelinKeySet κ η := ⟨GoMap.empty, GoMap.empty, GoMap.empty⟩

/-- `AddRelinearizationKey` (mkrlwe/keys.go 178-182); `fresh` is `NewSwitchingKey(params)`. -/
def add (idOf : κ → String) (fresh : η) (s : RelinKeySet κ η) (k : κ) : RelinKeySet κ η :=
  { value := s.value.set (idOf k) k
    pool0 := s.pool0.set (idOf k) fresh
    pool1 := s.pool1.set (idOf k) fresh }

/-- `DelRelinearizationKey` (mkrlwe/keys.go 185-187): only the key is removed, the hoisting
pools keep their entries. -/
def del (s : RelinKeySet κ η) (id : String) : RelinKeySet κ η :=
  { s with value := s.value.del id }

/-- `GetRelinearizationKey` (mkrlwe/keys.go 190-198). -/
def get (s : RelinKeySet κ η) (id : String) : Go κ :=
  match s.value.get? id with
  | some k => .ok k
  | none => .error
      (.msg "cannot GetRelinearizationKey: there is no relinearization key with given id")

end RelinKeySet

end MK
