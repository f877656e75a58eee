import Verif.Games

/-!
# The web API (cmd/GoBCDiceAPI)

The echo framework (routing, JSON encoding, network) is not modelled: `c.JSON(status, body)` is the
pair of its arguments.  Maps are passed by reference in Go; the only map written is the body that
is sent, so the model returns it.
-/

namespace GoBCDice

/-- Values stored in a response body (`interface{}`). -/
inductive JV where
  | bool (b : Bool)
  | int (n : Int64)
  | str (s : Str)
  | strs (l : List Str)
  | infos (l : List SystemInfo)
  /-- a slice of maps, nil ones being `none` -/
  | maps (l : List (Option (List (Str × JV))))

/-- `helpers.ResponseMap` (helpers/response.go:13): `none` is the nil map. -/
abbrev ResponseMap := Option (GoMap JV)

/-- What `c.JSON` is given. -/
structure Response where
  status : Int64
  body : GoMap JV

/-- `helpers.ResponseError` (helpers/response.go:8-11). -/
structure ResponseError where
  code : Int64
  message : Str

/-- `ResponseError.Error` (helpers/response.go:24-26). -/
def ResponseError.error (e : ResponseError) : Str :=
  chars!"Response error: " ++ intStr e.code ++ chars!" " ++ e.message

/-- `helpers.JSONResponse` (helpers/response.go:33-40); writing to a nil map panics. -/
def jsonResponse (statusCode : Int64) (body : ResponseMap) : Out Response :=
  match body with
  | none => .panic chars!"assignment to entry in nil map"
  | some m =>
    if statusCode ≠ 200 then .ok ⟨statusCode, m.set chars!"ok" (.bool false)⟩
    else .ok ⟨statusCode, m.set chars!"ok" (.bool true)⟩

/-- `helpers.JSONResponseObject` (helpers/response.go:28-31). -/
def jsonResponseObject (statusCode : Int64) (toResponseMap : ResponseMap) : Out Response :=
  jsonResponse statusCode toResponseMap

/-- `helpers.JSONResponseArray` (helpers/response.go:42-48). -/
def jsonResponseArray (statusCode : Int64) (collection : List ResponseMap) : Out Response :=
  let body := (GoMap.empty (V := JV)).set chars!"items" (.maps (collection.map (·.map GoMap.entries)))
  let body := body.set chars!"count" (.int (Int64.ofNat collection.length))
  jsonResponse statusCode (some body)

/-- `helpers.JSONResponseError` (helpers/response.go:50-54). -/
def jsonResponseError (err : ResponseError) : Out Response :=
  let body := ((GoMap.empty (V := JV)).set chars!"ok" (.bool false)).set chars!"message"
    (.str err.message)
  jsonResponse err.code (some body)

/-- Body of `RootResponse` (models/root_response.go:11-21). -/
def rootBody : ResponseMap :=
  some ((GoMap.empty (V := JV)).set chars!"message" (.str chars!"Hello. This is GoBCDiceAPI."))

/-- Body of `Version` (models/version.go:13-25, pkg/version/version.go). -/
def versionBody : ResponseMap :=
  some (((GoMap.empty (V := JV)).set chars!"api" (.str chars!"0.0.1")).set chars!"bcdice"
    (.str chars!"0.0.0"))

/-- Body of `Systems` (models/systems.go:12-20), given what `AvailableGameIDs(true)` returned. -/
def systemsBody (ids : List Str) : ResponseMap :=
  some ((GoMap.empty (V := JV)).set chars!"systems" (.strs ids))

/-- Body of `Names` (models/names.go:12-23), given what `AvailableGameInfos(true)` returned. -/
def namesBody (infos : List SystemInfo) : ResponseMap :=
  some ((GoMap.empty (V := JV)).set chars!"names" (.infos infos))

/-- The registered handlers: `answer` is a possible answer to `GET path`
(controllers/router.go:9-26, root.go:23-32, v1/version.go:23-31, v1/systems.go:19-27,
v1/names.go:19-27). -/
inductive Serves {σ} (usage : Str) (reg : Registry σ) : (path : Str) → (answer : Out Response) → Prop
  | root : Serves usage reg chars!"/" (jsonResponseObject 200 rootBody)
  | version : Serves usage reg chars!"/v1/version" (jsonResponseObject 200 versionBody)
  | systems (ids : List Str) : AvailableGameIDs usage reg true ids →
      Serves usage reg chars!"/v1/systems" (jsonResponseObject 200 (systemsBody ids))
  | names (infos : List SystemInfo) : AvailableGameInfos usage reg true infos →
      Serves usage reg chars!"/v1/names" (jsonResponseObject 200 (namesBody infos))

/-! ## Validation errors (helpers/errors.go) -/

/-- `helpers.Errors` (errors.go:4-6); `NewErrors` (errors.go:9-15) has an empty map, and no code
makes it nil. -/
structure Errors where
  messages : GoMap Str

/-- `NewErrors` (errors.go:9-15). -/
def newErrors : Errors := ⟨GoMap.empty⟩

/-- `Errors.Add` (errors.go:18-20). -/
def Errors.add (e : Errors) (field message : Str) : Errors := ⟨e.messages.set field message⟩

/-- `Errors.ValidateMinValue` (errors.go:23-27). -/
def Errors.validateMin (e : Errors) (value min : Int64) (field message : Str) : Errors :=
  if value < min then e.add field message else e

/-- `Errors.ValidateMaxValue` (errors.go:30-34). -/
def Errors.validateMax (e : Errors) (value max : Int64) (field message : Str) : Errors :=
  if value > max then e.add field message else e

/-- `Errors.Clear` (errors.go:37-39). -/
def Errors.clear (_ : Errors) : Errors := ⟨GoMap.empty⟩

/-- `Errors.HasMessages` (errors.go:42-44). -/
def Errors.hasMessages (e : Errors) : Bool := decide (e.messages.len > 0)

/-- A call on an `Errors` record. -/
inductive ErrorsOp where
  | add (field message : Str)
  | validateMin (value min : Int64) (field message : Str)
  | validateMax (value max : Int64) (field message : Str)
  | clear

/-- The effect of a call. -/
def Errors.step (e : Errors) : ErrorsOp → Errors
  | .add f m => e.add f m
  | .validateMin v b f m => e.validateMin v b f m
  | .validateMax v b f m => e.validateMax v b f m
  | .clear => e.clear

end GoBCDice
