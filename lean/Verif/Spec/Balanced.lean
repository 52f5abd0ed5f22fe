import Verif.Model.XmlParser

/-!
# Event streams of whole elements
-/

namespace Docx.Spec

open Docx.Xml

/-- Events that make up whole elements, character data and white space: every start has its end. -/
inductive BalancedEvents : List REvent → Prop
  | nil : BalancedEvents []
  | chars (t : Str) {es : List REvent} : BalancedEvents es → BalancedEvents (.chars t :: es)
  | whitespace (t : Str) {es : List REvent} : BalancedEvents es → BalancedEvents (.whitespace t :: es)
  | element (q : QName) (as : List (QName × Str)) {inner es : List REvent} :
      BalancedEvents inner → BalancedEvents es → BalancedEvents (.start q as :: (inner ++ .«end» q :: es))

/-- The local names of the start events. -/
def startNames : List REvent → List Str
  | [] => []
  | .start q _ :: es => q.loc :: startNames es
  | _ :: es => startNames es

/-- The local names of the end events. -/
def endNames : List REvent → List Str
  | [] => []
  | .«end» q :: es => q.loc :: endNames es
  | _ :: es => endNames es

end Docx.Spec
