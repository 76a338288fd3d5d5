import Verif.Model.StringUtil
/-!
# Model of type names

Source: include/snitch/snitch_type_name.hpp 8-37.

What a compiler writes for `__PRETTY_FUNCTION__` or `__FUNCSIG__` is not in the source; the texts assumed here are those
of the three compilers, with the spelling of the type left open.
-/
namespace Verif.TypeName

/-- include/snitch/snitch_type_name.hpp 11-25. -/
inductive Compiler where
  | clang
  | gcc
  | msvc
deriving DecidableEq, Repr

/-- include/snitch/snitch_type_name.hpp 12, 16, 20 `prefix`. -/
def Compiler.prefix : Compiler → Text
  | .clang => "[T = ".toList
  | .gcc => "with T = ".toList
  | .msvc => "get_type_name<".toList

/-- include/snitch/snitch_type_name.hpp 13, 17, 21 `suffix`. -/
def Compiler.suffix : Compiler → Text
  | .clang => "]".toList
  | .gcc => "; ".toList
  | .msvc => ">(void)".toList

/-- What the compiler writes before the type in the name of `get_type_name<T>()`. -/
def Compiler.before : Compiler → Text
  | .clang => "std::string_view snitch::impl::get_type_name() [T = ".toList
  | .gcc => "constexpr std::string_view snitch::impl::get_type_name() [with T = ".toList
  | .msvc =>
    "class std::basic_string_view<char,struct std::char_traits<char> > __cdecl snitch::impl::get_type_name<".toList

/-- What the compiler writes after the type. -/
def Compiler.after : Compiler → Text
  | .clang => "]".toList
  | .gcc => "; std::string_view = std::basic_string_view<char>]".toList
  | .msvc => ">(void) noexcept".toList

/-- include/snitch/snitch_type_name.hpp 14, 18, 22 `function`, for a type with the given spelling. -/
def Compiler.function (c : Compiler) (type : Text) : Text := c.before ++ type ++ c.after

/-- `std::string_view::find` (standard library), with `npos` for nothing found. -/
def find (s pattern : Text) : Nat := (Util.findAt pattern s).getD (2 ^ 64 - 1)

/-- include/snitch/snitch_type_name.hpp 10-32 `get_type_name`; `std::size_t` has 64 bits. `substr` throws if the start is
beyond the end; in a function that is `noexcept` this terminates. -/
def getTypeName (c : Compiler) (function : Text) : Outcome Text :=
  let start := (find function c.prefix + c.prefix.length) % 2 ^ 64
  let «end» := find function c.suffix
  let size := (2 ^ 64 + «end» - start) % 2 ^ 64
  if start > function.length then .abort else .ok ((function.drop start).take size)

/-- include/snitch/snitch_type_name.hpp 37 `type_name`. -/
def typeName (c : Compiler) (type : Text) : Outcome Text := getTypeName c (c.function type)

end Verif.TypeName
