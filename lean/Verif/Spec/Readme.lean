import Verif.Spec.Cli
/-!
# The options in the README

README.md 893-905.
-/
namespace Verif.Cli.Spec
open Verif

/-- An option as the README lists it: its spellings, whether it has a value, and the name under which programs find it
(`cli::get_option`, README.md 893-905, include/snitch/snitch_cli.hpp 53-54). -/
structure Listing where
  spellings : List String
  valued : Bool
  name : String

/-- README.md 893-905, the options in order. -/
def readme : List Listing :=
  [⟨["-h", "--help"], false, "--help"⟩,
   ⟨["-l", "--list-tests"], false, "--list-tests"⟩,
   ⟨["--list-tags"], false, "--list-tags"⟩,
   ⟨["--list-tests-with-tag"], true, "--list-tests-with-tag"⟩,
   ⟨["--list-reporters"], false, "--list-reporters"⟩,
   ⟨["-r", "--reporter"], true, "--reporter"⟩,
   ⟨["-v", "--verbosity"], true, "--verbosity"⟩,
   ⟨["-o", "--output"], true, "--out"⟩,
   ⟨["--color"], true, "--color"⟩,
   ⟨["--colour-mode"], true, "--colour-mode"⟩]

/-- An option in a given spelling, with its value if it has one. -/
def Listing.written (o : Listing) (spelling : String) (value : Text) : List Text :=
  spelling.toList :: if o.valued then [value] else []

/-- What such an option is. -/
def Listing.token (o : Listing) (value : Text) : Token := .option o.name.toList (if o.valued then some value else none)

/-- After these arguments a new one is read: they do not end with an option of Catch2 that takes the next argument. -/
def Complete (argv : List Text) : Prop := ∀ a, argv.getLast? = some a → kind a ≠ .swallow

end Verif.Cli.Spec
