import Verif.Spec.ErrorChain
/-!
# What an error tells

The variants of the error types and the names of what could not be read.  The four variants of
`NetworkError` that no code constructs are not in the model and not listed.
-/
namespace Boxcars.Spec

/-- A variant of an error type, or a name given by one. -/
inductive Told where
  /-- `ParseError::ParseError` with a name -/
  | part (name : String)
  | utf8Error
  | textTooLarge
  | insufficientData
  | unexpectedProperty
  | crcMismatch
  /-- `ParseError::CorruptReplay` with a name -/
  | corrupt (name : String)
  | listTooLarge
  | streamTooLargeIndex
  | tooManyFrames
  /-- `FrameError::NotEnoughDataFor` with a name -/
  | inFrame (name : String)
  | timeOutOfRange
  | deltaOutOfRange
  | objectIdOutOfRange
  | missingActor
  | missingCache
  | missingAttribute
  /-- `AttributeError::NotEnoughDataFor` with a name -/
  | inAttribute (name : String)
  | unrecognizedRemoteId
  | unimplemented
  | tooBigString
  deriving DecidableEq

def AttributeError.told : AttributeError → Told
  | .notEnoughDataFor s => .inAttribute s
  | .unrecognizedRemoteId _ => .unrecognizedRemoteId
  | .unimplemented => .unimplemented
  | .tooBigString _ => .tooBigString

def FrameError.told : FrameError → Told
  | .notEnoughDataFor s => .inFrame s
  | .timeOutOfRange _ => .timeOutOfRange
  | .deltaOutOfRange _ => .deltaOutOfRange
  | .objectIdOutOfRange _ => .objectIdOutOfRange
  | .missingActor _ => .missingActor
  | .missingCache _ _ => .missingCache
  | .missingAttribute _ _ _ => .missingAttribute
  | .attributeError _ _ _ e => AttributeError.told e

def NetworkError.told : NetworkError → Told
  | .streamTooLargeIndex _ _ => .streamTooLargeIndex
  | .tooManyFrames _ => .tooManyFrames
  | .frameError e _ => FrameError.told e

/-- Everything an error tells, from the outside to the inside. -/
def tells : ParseError → List Told
  | .parseError s _ e => .part s :: tells e
  | .utf8Error _ => [.utf8Error]
  | .textTooLarge _ => [.textTooLarge]
  | .insufficientData _ _ => [.insufficientData]
  | .unexpectedProperty _ => [.unexpectedProperty]
  | .crcMismatch _ _ => [.crcMismatch]
  | .corruptReplay s e => .corrupt s :: tells e
  | .listTooLarge _ => [.listTooLarge]
  | .networkError e => [NetworkError.told e]

/-- What a frame lacks. -/
def frameNames : List String :=
  ["Time", "Delta", "Actor data", "Actor Id", "Is new actor", "New Actor", "Is prop present",
   "Prop id"]

/-- What an attribute value lacks. -/
def attributeNames : List String :=
  ["Boolean", "Byte", "Applied Damage", "Damage State", "Cam Settings", "Club Colors", "Demolish",
   "DemolishExtended", "DemolishFx", "Enum", "Explosion", "Extended Explosion", "FlaggedByte",
   "Active Actor", "Float", "Game Mode", "Int", "Int64", "Loadout", "Team Loadout", "Location",
   "Music Stinger", "PlayerHistoryKey", "Pickup", "PickupNew", "QWord", "Welded", "Title",
   "Team Paint", "Stat Event", "Rotation", "Pickup Info", "Impulse", "ReplicatedBoost", "LogoData",
   "Rigid Body", "text string", "System id", "SplitScreen", "Steam", "PS4 Name", "PS4 Unknown",
   "PS4 ID", "Xbox", "QQ ID", "Switch ID", "Switch ID Unknown", "PsyNet ID", "PsyNet ID Unknown",
   "UniqueId local_id", "Party Leader", "Reservation", "Private Match", "RepStatTitle",
   "Loadout Online", "Loadouts online"]

/-- Everything that is told about some file: all but `Unimplemented`. -/
def allTold : List Told :=
  [.utf8Error, .textTooLarge, .insufficientData, .unexpectedProperty, .crcMismatch,
   .corrupt "header", .corrupt "body", .listTooLarge, .streamTooLargeIndex, .tooManyFrames,
   .timeOutOfRange, .deltaOutOfRange, .objectIdOutOfRange, .missingActor, .missingCache,
   .missingAttribute, .unrecognizedRemoteId, .tooBigString] ++
  partNames.map .part ++ frameNames.map .inFrame ++ attributeNames.map .inAttribute

end Boxcars.Spec
