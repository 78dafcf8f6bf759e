import Verif.Proofs.AttrSpec2
import Verif.Proofs.ESpec
/-!
# The attribute decoders report `Unimplemented` for unknown attributes only
-/
namespace Boxcars

variable {α β : Type}

/-- `m` does not fail with `Unimplemented`. -/
def Impl (m : BM AttributeError α) : Prop := ∀ env r r', m env r ≠ .err .unimplemented r'

namespace Impl

theorem need (what : String) (m : BM Unit α) : Impl (need what m) := by
  intro env r r' h
  unfold Boxcars.need BM.okOr BM.mapErr at h
  revert h
  cases m env r <;> intro h <;> cases h

theorem okOr (e : AttributeError) (he : e ≠ .unimplemented) (m : BM Unit α) :
    Impl (BM.okOr e m) := by
  intro env r r' h
  unfold BM.okOr BM.mapErr at h
  revert h
  cases m env r <;> intro h <;> cases h
  exact he rfl

theorem pure (a : α) : Impl (Pure.pure a : BM AttributeError α) := by
  intro env r r' h; cases h

theorem fail (e : AttributeError) (he : e ≠ .unimplemented) :
    Impl (BM.fail e : BM AttributeError α) := by
  intro env r r' h; cases h; exact he rfl

theorem faulty (x : Fault) : Impl (BM.faulty x : BM AttributeError α) := by
  intro env r r' h; cases h

theorem bind {m : BM AttributeError α} {f : α → BM AttributeError β} (h : Impl m)
    (hf : ∀ a, Impl (f a)) : Impl (m >>= f) := by
  intro env r r' hx
  change BM.bind m f env r = _ at hx
  unfold BM.bind at hx
  revert hx
  cases hm : m env r with
  | ok a r1 => exact fun hx => hf a _ _ _ hx
  | err e r1 => intro hx; cases hx; exact h _ _ _ hm
  | fault x => intro hx; cases hx

theorem ite {c : Prop} [Decidable c] {m m' : BM AttributeError α} (h : Impl m) (h' : Impl m') :
    Impl (if c then m else m') := by
  split
  · exact h
  · exact h'

theorem named (what : String) (f : α → Attribute) (m : BM Unit α) :
    Impl (AttrDecoder.named what f m) := (need what m).bind fun _ => pure _

theorem mapAttr (f : α → Attribute) {m : BM AttributeError α} (h : Impl m) :
    Impl (AttrDecoder.mapAttr f m) := h.bind fun _ => pure _

theorem decodeText : Impl decodeText := by
  unfold Boxcars.decodeText
  refine (need _ _).bind fun size => ite (pure _) (ite (ite (fail _ (by simp)) (ite (fail _ (by simp))
    ((okOr _ (by simp) _).bind fun _ => pure _))) (ite (fail _ (by simp))
    ((okOr _ (by simp) _).bind fun _ => pure _)))

theorem decodeRemoteId (net : I32) (s : Byte) : Impl (decodeRemoteId net s) := by
  unfold Boxcars.decodeRemoteId
  repeat' first
    | exact decodeText
    | exact need _ _
    | exact pure _
    | exact fail _ (by simp)
    | apply ite
    | apply bind
    | intro _

theorem decodeUniqueIdWith (net : I32) (s : Byte) : Impl (decodeUniqueIdWith net s) :=
  (decodeRemoteId net s).bind fun _ => (need _ _).bind fun _ => pure _

theorem decodeUniqueId (net : I32) : Impl (decodeUniqueId net) :=
  (need _ _).bind fun s => decodeUniqueIdWith net s

theorem reservationName (fuel : Nat) (acc : Str) : Impl (reservationName fuel acc) := by
  induction fuel generalizing acc with
  | zero => exact faulty _
  | succ fuel ih =>
    rw [Boxcars.reservationName]
    exact ite ((need _ _).bind fun c => ite (pure _) (ih _)) (pure _)

theorem reservation (d : AttrDecoder) : Impl d.reservation := by
  unfold AttrDecoder.reservation
  repeat' first
    | exact decodeText
    | exact decodeUniqueId _
    | exact reservationName _ _
    | exact need _ _
    | exact pure _
    | apply ite
    | apply bind
    | intro _

theorem decode (d : AttrDecoder) (tag : AttributeTag) (ht : tag ≠ .notImplemented) :
    Impl (d.decode tag) := by
  cases tag <;> unfold AttrDecoder.decode <;> (try unfold AttrDecoder.decodeUncommon) <;> (try simp only)
  all_goals first
    | exact absurd rfl ht
    | exact named _ _ _
    | exact need _ _
    | exact mapAttr _ decodeText
    | exact mapAttr _ (decodeUniqueId _)
    | exact mapAttr _ (reservation _)
    | exact ite (mapAttr _ decodeText) (named _ _ _)
    | exact mapAttr _ ((need _ _).bind fun s => ite ((decodeUniqueIdWith _ _).bind fun _ => pure _) (pure _))
    | exact mapAttr _ (decodeText.bind fun _ => (need _ _).bind fun _ => (need _ _).bind fun _ =>
        decodeText.bind fun _ => decodeText.bind fun _ => (need _ _).bind fun _ => pure _)
    | exact mapAttr _ ((need _ _).bind fun _ => decodeText.bind fun _ => (need _ _).bind fun _ =>
        (need _ _).bind fun _ => (need _ _).bind fun _ => pure _)

end Impl
end Boxcars
