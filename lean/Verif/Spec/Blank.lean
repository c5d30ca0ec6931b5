/-! # White space -/
namespace Verif.Spec

/-- The characters of white space in Unicode: control characters from tab to carriage return, space, next line, no-break space, Ogham space mark, the spaces from en quad to hair space, line and paragraph separator, narrow
no-break space, mathematical space and ideographic space. -/
inductive WhiteSpace : Char → Prop
  | tab : WhiteSpace '\t'
  | newLine : WhiteSpace '\n'
  | verticalTab : WhiteSpace '\x0b'
  | formFeed : WhiteSpace '\x0c'
  | carriageReturn : WhiteSpace '\r'
  | space : WhiteSpace ' '
  | nextLine : WhiteSpace '\u0085'
  | noBreak : WhiteSpace '\u00a0'
  | ogham : WhiteSpace '\u1680'
  | general {c : Char} : '\u2000' ≤ c → c ≤ '\u200a' → WhiteSpace c
  | line : WhiteSpace '\u2028'
  | paragraph : WhiteSpace '\u2029'
  | narrow : WhiteSpace '\u202f'
  | mathematical : WhiteSpace '\u205f'
  | ideographic : WhiteSpace '\u3000'

end Verif.Spec
