import Verif.Spec.File
/-!
# Property lists containing a property of an unknown kind
-/
namespace Boxcars.Spec

/-- The property kinds of the format. -/
def knownKinds : List Str :=
  ["BoolProperty".toList, "ByteProperty".toList, "ArrayProperty".toList, "FloatProperty".toList,
   "IntProperty".toList, "QWordProperty".toList, "NameProperty".toList, "StrProperty".toList,
   "StructProperty".toList]

/-- `d` starts with a property list that is well formed up to a property of the unknown
kind `kind`, at any nesting depth.  Nothing is said about what follows. -/
inductive UnknownAt (quirks : Bool) (kind : Str) : Bytes → Prop where
  | here {key b1 b2 sz d} : key ≠ "None".toList → StrField key b1 → StrField kind b2 →
      sz.length = 8 → kind ∉ knownKinds → UnknownAt quirks kind (b1 ++ (b2 ++ (sz ++ d)))
  | later {key k v b1 b2 sz b3 d} : key ≠ "None".toList → StrField key b1 → StrField k b2 →
      sz.length = 8 → PropVal quirks k v b3 → UnknownAt quirks kind d →
      UnknownAt quirks kind (b1 ++ (b2 ++ (sz ++ (b3 ++ d))))
  | afterSkip {key b1 b2 sz b3 x d} : key ≠ "None".toList → quirks = false → StrField key b1 →
      StrField "ByteProperty".toList b2 → sz.length = 8 → StrField "None".toList b3 →
      UnknownAt quirks kind d → UnknownAt quirks kind (b1 ++ (b2 ++ (sz ++ ((b3 ++ [x]) ++ d))))
  | inArray {key b1 b2 sz n xs body d} : key ≠ "None".toList → StrField key b1 →
      StrField "ArrayProperty".toList b2 → sz.length = 8 → n ≤ 25000 → xs.length < n →
      Concat (PropList quirks) xs body → UnknownAt quirks kind d →
      UnknownAt quirks kind (b1 ++ (b2 ++ (sz ++ (word (BitVec.ofNat 32 n) ++ (body ++ d)))))
  | inStruct {key b1 b2 sz name b3 d} : key ≠ "None".toList → StrField key b1 →
      StrField "StructProperty".toList b2 → sz.length = 8 → StrField name b3 →
      UnknownAt quirks kind d → UnknownAt quirks kind (b1 ++ (b2 ++ (sz ++ (b3 ++ d))))

end Boxcars.Spec
