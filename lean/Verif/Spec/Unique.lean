import Verif.Spec.Attr
/-!
# Attribute types whose values determine their bits
-/
namespace Boxcars.Spec

/-- Types whose values can be written in one way only.  The others have a vector, whose size
class is not kept, a text, whose encoding is not kept, or a loadout, of which three words are not
kept. -/
def oneWay : AttributeTag → Bool
  | .boolean | .byte | .camSettings | .clubColors | .enum | .flaggedByte | .activeActor | .float
  | .gameMode | .int | .int64 | .musicStinger | .playerHistoryKey | .pickup | .pickupNew | .title
  | .teamPaint | .statEvent | .rotationTag | .pickupInfo | .impulse | .replicatedBoost | .logoData
  | .notImplemented => true
  | _ => false

end Boxcars.Spec
