import Verif.Model.Core
/-!
# Model of the body part of `src/parser.rs` (lines 461-572)
-/
namespace Boxcars

/-- `parse_tickmarks`, `src/parser.rs:520-527`. -/
def parseTickmarks : P (List TickMark) := listOf do
  let description ← parseText
  let frame ← take32
  pure ⟨description, frame⟩

/-- `parse_keyframe`, `src/parser.rs:529-537`. -/
def parseKeyframe : P (List KeyFrame) := listOf do
  let time ← take32
  let frame ← take32
  let position ← take32
  pure ⟨time, frame, position⟩

/-- `parse_debuginfo`, `src/parser.rs:539-547`. -/
def parseDebuginfo : P (List DebugInfo) := listOf do
  let frame ← take32
  let user ← parseText
  let text ← parseText
  pure ⟨frame, user, text⟩

/-- `parse_classindex`, `src/parser.rs:549-556`. -/
def parseClassindex : P (List ClassIndex) := listOf do
  let cls ← parseStr
  let index ← take32
  pure ⟨cls, index⟩

/-- `parse_classcache`, `src/parser.rs:558-572`. -/
def parseClasscache : P (List ClassNetCache) := listOf do
  let objectInd ← take32
  let parentId ← take32
  let cacheId ← take32
  let properties ← listOf do
    let objectInd ← take32
    let streamId ← take32
    pure (⟨objectInd, streamId⟩ : CacheProp)
  pure ⟨objectInd, parentId, cacheId, properties⟩

/-- `parse_body`, `src/parser.rs:461-518`. -/
def parseBody : P ReplayBody := do
  let levels ← P.wrap "levels" textList
  let keyframes ← P.wrap "keyframes" parseKeyframe
  let networkSize ← takeI32 "network size"
  let n ← P.usize networkSize
  let networkData ← P.wrap "network data" (takeData n)
  let debugInfo ← P.wrap "debug info" parseDebuginfo
  let tickMarks ← P.wrap "tickmarks" parseTickmarks
  let packages ← P.wrap "packages" textList
  let objects ← P.wrap "objects" textList
  let names ← P.wrap "names" textList
  let classIndices ← P.wrap "class index" parseClassindex
  let netCache ← P.wrap "net cache" parseClasscache
  pure {
    levels, keyframes, debugInfo, tickMarks, packages, objects, names,
    classIndices, netCache, networkData }

end Boxcars
