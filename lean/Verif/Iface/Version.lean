import Verif.Num
/-!
# Contract versions and migration

Models `/repo/packages/utils/src/lib.rs:7-31` (`store_version`) and the `migrate` entry points of the contracts.
The crates `cw2` 1.1.2 and `semver` 1.0.21 are not part of the repository: of `cw2` the stored name and version are
modelled; of `semver` the order of versions (`impl Ord for Version`, derived on the fields major, minor, patch, pre,
build) is modelled here; the parser is a parameter, instantiated in `Iface/Semver.lean`.
-/

namespace Ibcx.Iface
open Ibcx

/-- One dot separated identifier of a pre-release: digits only, or a text.  Numeric ones have no leading zeros.  Under
`/repo/packages/utils/src/lib.rs:19-22`. -/
inductive PreId where
  | num (n : Nat)
  | text (s : String)
deriving DecidableEq, Repr

/-- One dot separated identifier of build metadata; numeric ones are kept with their length because leading zeros
are allowed.  Under `/repo/packages/utils/src/lib.rs:19-22`. -/
inductive BuildId where
  | num (n len : Nat)
  | text (s : String)
deriving DecidableEq, Repr

/-- `semver::Version`, used in `/repo/packages/utils/src/lib.rs:19-20`. -/
structure Version where
  major : Nat
  minor : Nat
  patch : Nat
  pre : List PreId
  build : List BuildId
deriving DecidableEq, Repr

/-- Order of pre-release identifiers (`semver`, `impl Ord for Prerelease`): numeric ones by value and below texts. 
Under `/repo/packages/utils/src/lib.rs:19-22`. -/
def cmpPreId : PreId → PreId → Ordering
  | .num a, .num b => compare a b
  | .num _, .text _ => .lt
  | .text _, .num _ => .gt
  | .text a, .text b => compare a b

/-- Order of build identifiers (`semver`, `impl Ord for BuildMetadata`): `0 < 00 < 1 < 01`.  Under
`/repo/packages/utils/src/lib.rs:19-22`. -/
def cmpBuildId : BuildId → BuildId → Ordering
  | .num a l, .num b k => (compare a b).then (compare l k)
  | .num _ _, .text _ => .lt
  | .text _, .num _ _ => .gt
  | .text a, .text b => compare a b

/-- Field by field; a longer list is greater when all fields of the shorter one are equal.  Under
`/repo/packages/utils/src/lib.rs:19-22`. -/
def cmpFields {α : Type} (cmp : α → α → Ordering) : List α → List α → Ordering
  | [], [] => .eq
  | [], _ :: _ => .lt
  | _ :: _, [] => .gt
  | a :: as, b :: bs => (cmp a b).then (cmpFields cmp as bs)

/-- Order of pre-releases: a version without pre-release is greater.  Under `/repo/packages/utils/src/lib.rs:19-22`. -/
def cmpPre : List PreId → List PreId → Ordering
  | [], [] => .eq
  | [], _ :: _ => .gt
  | _ :: _, [] => .lt
  | as, bs => cmpFields cmpPreId as bs

/-- `impl Ord for Version`, used in `/repo/packages/utils/src/lib.rs:22`. -/
def cmpVersion (a b : Version) : Ordering :=
  (compare a.major b.major).then <| (compare a.minor b.minor).then <| (compare a.patch b.patch).then <|
    (cmpPre a.pre b.pre).then (cmpFields cmpBuildId a.build b.build)

/-- `cw2::ContractVersion`.  Loaded in `/repo/packages/utils/src/lib.rs:12`. -/
structure ContractVersion where
  contract : String
  version : String
deriving DecidableEq, Repr

/-- `store_version`, `/repo/packages/utils/src/lib.rs:7-31`.  The storage holds at most one `ContractVersion`;
`parse` is `Version::parse`. -/
def storeVersion (parse : String → Option Version) (stored : Option ContractVersion) (contract version : String) :
    Res (Option ContractVersion) :=
  match stored with
  | none => .error .notFound
  | some st =>
    if st.contract ≠ contract then .error .generic
    else
      match parse st.version with
      | none => .error .generic
      | some cv =>
        match parse version with
        | none => .error .generic
        | some nv =>
          if cmpVersion cv nv ≠ .lt then .error .generic
          else .ok (some { contract := contract, version := version })

/-- `migrate`, `/repo/contracts/core/src/contract.rs:181-190`, `/repo/contracts/airdrop/src/contract.rs:78-87`,
`/repo/contracts/periphery/src/contract.rs:157-166` (the same in all three): `name` and `version` are the constants
of the new code. -/
def migrate (parse : String → Option Version) (stored : Option ContractVersion) (name version : String)
    (force : Option Bool) : Res (Option ContractVersion) :=
  if force.getD false = false then storeVersion parse stored name version
  else .ok (some { contract := name, version := version })

/-- A migration request: the constants of the new code and the `force` field of the message.  Arguments of
`/repo/contracts/core/src/contract.rs:181-190`. -/
structure Migration where
  name : String
  version : String
  force : Option Bool

/-- A rejected migration leaves the storage unchanged.  Entry point `/repo/contracts/core/src/contract.rs:181-190`. -/
def migrateStep (parse : String → Option Version) (stored : Option ContractVersion) (m : Migration) :
    Option ContractVersion :=
  match migrate parse stored m.name m.version m.force with
  | .ok st => st
  | .error _ => stored

end Ibcx.Iface
