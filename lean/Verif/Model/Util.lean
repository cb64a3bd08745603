import Verif.Model.Snapshot

/-!
# Descriptive texts: `src/util.rs`
-/

namespace Metrix

/-- What `Descriptive::title` and `Descriptive::description` (`src/lib.rs:380-388`) return. -/
structure Descr where
  title : Option String := none
  description : Option String := none
  deriving DecidableEq

/-- `into.items.iter().find(|(n, _)| n == label).is_none()` in `src/util.rs:32, 41, 58-62, 72-76`. -/
def Snapshot.hasName (s : Snapshot) (name : String) : Bool := s.any fun x => x.1 == name

/-- Push a text under a label unless the label is there already: the repeated pattern of
`src/util.rs:30-46, 57-83`. -/
def putText (label : String) (text : Option String) (into : Snapshot) : Snapshot :=
  match text with
  | none => into
  | some t => if into.hasName label then into else into.push label (.text t)

/-- `src/util.rs:49-84` (`put_descriptives`). -/
def putDescriptives (what : Descr) (titleLabel descriptionLabel : String) (into : Snapshot) :
    Snapshot :=
  putText descriptionLabel what.description (putText titleLabel what.title into)

/-- `src/util.rs:9-16` (`put_default_descriptives`). -/
def putDefaultDescriptives (what : Descr) (into : Snapshot) (descriptive : Bool) : Snapshot :=
  if descriptive then putDescriptives what "_title" "_description" into else into

/-- `src/util.rs:18-47` (`put_postfixed_descriptives`). -/
def putPostfixedDescriptives (what : Descr) (postfix_ : String) (into : Snapshot)
    (descriptive : Bool) : Snapshot :=
  if descriptive then
    putText ("_description" ++ "_" ++ postfix_) what.description
      (putText ("_title" ++ "_" ++ postfix_) what.title into)
  else into

end Metrix
