import Verif.Model.Body
import Verif.Model.Crc
import Verif.Model.Network
/-!
# Model of the parser and builder in `src/parser.rs`

Line numbers refer to that file.
-/
namespace Boxcars

/-- `CrcCheck`, lines 229-244. -/
inductive CrcCheck where
  | always
  | never
  | onError
  deriving DecidableEq, Repr

/-- `NetworkParse`, lines 249-259. -/
inductive NetworkParse where
  | always
  | never
  | ignoreOnError
  deriving DecidableEq, Repr

/-- `Parser::crc_section`, lines 427-459. -/
def crcSection {α : Type} (check : CrcCheck) (data : List Byte) (crc : U32) (sec : String)
    (f : P α) : P α := fun env s =>
  match f env s with
  | .fault x => .fault x
  | .ok a s' =>
    match check with
    | .always =>
      let actual := Crc.calcCrc data
      if actual ≠ crc then .err (.crcMismatch crc actual) s' else .ok a s'
    | .onError => .ok a s'
    | .never => .ok a s'
  | .err e s' =>
    match check with
    | .always =>
      let actual := Crc.calcCrc data
      if actual ≠ crc then .err (.crcMismatch crc actual) s' else .err e s'
    | .onError =>
      let actual := Crc.calcCrc data
      if actual ≠ crc then .err (.corruptReplay sec e) s' else .err e s'
    | .never => .err e s'

/-- The `match self.network_parse`, lines 380-390. -/
def networkStep (np : NetworkParse) (h : Header) (body : ReplayBody) :
    P (Option NetworkFrames) := fun env s =>
  match np with
  | .never => .ok none s
  | .always =>
    match Network.parse env h body with
    | .ok f => .ok (some f) s
    | .err e => .err (.networkError e) s
    | .fault x => .fault x
  | .ignoreOnError =>
    match Network.parse env h body with
    | .ok f => .ok (some f) s
    | .err _ => .ok none s
    | .fault x => .fault x

/-- `Parser::parse`, lines 361-413. -/
def parserParse (check : CrcCheck) (np : NetworkParse) : P Replay := do
  let headerSize ← takeI32 "header size"
  let headerCrc ← takeI32 "header crc"
  let n ← P.usize headerSize
  let headerData ← P.wrap "header data" (viewData n)
  let header ← crcSection check headerData headerCrc "header" parseHeader
  let contentSize ← takeI32 "content size"
  let contentCrc ← takeI32 "content crc"
  let n ← P.usize contentSize
  let contentData ← P.wrap "content data" (viewData n)
  let body ← crcSection check contentData contentCrc "body" parseBody
  let network ← networkStep np header body
  pure {
    headerSize, headerCrc
    majorVersion := header.majorVersion
    minorVersion := header.minorVersion
    netVersion := header.netVersion
    gameType := header.gameType
    properties := header.properties
    contentSize, contentCrc
    networkFrames := network
    levels := body.levels
    keyframes := body.keyframes
    debugInfo := body.debugInfo
    tickMarks := body.tickMarks
    packages := body.packages
    objects := body.objects
    names := body.names
    classIndices := body.classIndices
    netCache := body.netCache }

/-- `ParserBuilder`, lines 264-268, without the borrowed data. -/
structure ParserBuilder where
  crcCheck : Option CrcCheck
  networkParse : Option NetworkParse
  deriving DecidableEq, Repr

namespace ParserBuilder

/-- `new`, lines 271-277. -/
def new : ParserBuilder := ⟨none, none⟩
/-- `always_check_crc`, lines 279-282. -/
def alwaysCheckCrc (b : ParserBuilder) : ParserBuilder := { b with crcCheck := some .always }
/-- `never_check_crc`, lines 284-287. -/
def neverCheckCrc (b : ParserBuilder) : ParserBuilder := { b with crcCheck := some .never }
/-- `on_error_check_crc`, lines 289-292. -/
def onErrorCheckCrc (b : ParserBuilder) : ParserBuilder := { b with crcCheck := some .onError }
/-- `with_crc_check`, lines 294-297. -/
def withCrcCheck (b : ParserBuilder) (c : CrcCheck) : ParserBuilder := { b with crcCheck := some c }
/-- `must_parse_network_data`, lines 299-302. -/
def mustParseNetworkData (b : ParserBuilder) : ParserBuilder :=
  { b with networkParse := some .always }
/-- `never_parse_network_data`, lines 304-307. -/
def neverParseNetworkData (b : ParserBuilder) : ParserBuilder :=
  { b with networkParse := some .never }
/-- `ignore_network_data_on_error`, lines 309-312. -/
def ignoreNetworkDataOnError (b : ParserBuilder) : ParserBuilder :=
  { b with networkParse := some .ignoreOnError }
/-- `with_network_parse`, lines 314-317. -/
def withNetworkParse (b : ParserBuilder) (p : NetworkParse) : ParserBuilder :=
  { b with networkParse := some p }

/-- `parse`, lines 319-326. -/
def parse (b : ParserBuilder) (env : Env) (data : List Byte) : Res ParseError Replay :=
  match parserParse (b.crcCheck.getD .onError) (b.networkParse.getD .ignoreOnError) env
      (CoreSt.init data) with
  | .ok r _ => .ok r
  | .err e _ => .err e
  | .fault x => .fault x

end ParserBuilder
end Boxcars
