import Verif.UriLemmas

/-! # The IRI pattern, component by component -/

namespace Verif.DataTypes
open Verif Re Spec

namespace Uri

def rUcs : Re := .cls false [(0xa0, 0xd7ff), (0xf900, 0xfdcf), (0xfdf0, 0xffef), (0x10000, 0x1fffd), (0x20000, 0x2fffd),
   (0x30000, 0x3fffd), (0x40000, 0x4fffd), (0x50000, 0x5fffd), (0x60000, 0x6fffd), (0x70000, 0x7fffd),
   (0x80000, 0x8fffd), (0x90000, 0x9fffd), (0xa0000, 0xafffd), (0xb0000, 0xbfffd), (0xc0000, 0xcfffd),
   (0xd0000, 0xdfffd), (0xe1000, 0xefffd)]
def rUnresA : Re := .cls false [(97, 122), (65, 90), (48, 57), (45, 45), (46, 46), (95, 95), (126, 126)]
def rUnres : Re := alts [rUnresA, rUcs]
def rSub : Re := .cls false [(33, 33), (36, 36), (38, 38), (39, 39), (40, 40), (41, 41), (42, 42), (43, 43), (44, 44),
  (59, 59), (61, 61)]
def rReg : Re := alts [rUnres, rPct, rSub]
def rUser : Re := alts [rUnres, rPct, rSub, lit 58]
def rNum : Re := .cls false [(48, 57)]
def rOctet : Re := alts [rNum, seqs [.cls false [(49, 57)], rNum], seqs [lit 49, pow rNum 2],
  seqs [lit 50, .cls false [(48, 52)], rNum], seqs [lit 50, lit 53, .cls false [(48, 53)]]]
def rIpv4 : Re := seqs [rOctet, lit 46, rOctet, lit 46, rOctet, lit 46, rOctet]
def rH16 : Re := .seq (pow rHex 1) (upTo rHex 3)
def rH16c : Re := seqs [rH16, lit 58]
def rLs32 : Re := alts [seqs [rH16, lit 58, rH16], rIpv4]
def rBefore (k : Nat) : Re := opt (seqs [pow rH16c k, rH16])
def rIpv6 : Re := alts [
  seqs [pow rH16c 6, rLs32],
  seqs [lit 58, lit 58, pow rH16c 5, rLs32],
  seqs [opt rH16, lit 58, lit 58, pow rH16c 4, rLs32],
  seqs [opt (seqs [opt rH16c, rH16]), lit 58, lit 58, pow rH16c 3, rLs32],
  seqs [rBefore 2, lit 58, lit 58, pow rH16c 2, rLs32],
  seqs [rBefore 3, lit 58, lit 58, rH16, lit 58, rLs32],
  seqs [rBefore 4, lit 58, lit 58, rLs32],
  seqs [rBefore 5, lit 58, lit 58, rH16],
  seqs [rBefore 6, lit 58, lit 58]]
def rFuture : Re := seqs [.cls false [(118, 118), (86, 86)], plus rHex, lit 46, plus (alts [rUnresA, rSub, lit 58])]
def rLiteral : Re := seqs [lit 91, alts [rIpv6, rFuture], lit 93]
def rHost : Re := alts [rLiteral, rIpv4, .star rReg]
def rUserAt : Re := seqs [.star rUser, lit 64]
def rPort : Re := seqs [lit 58, .star rNum]
def rPchar : Re := alts [rUnres, rPct, rSub, .cls false [(58, 58), (64, 64)]]
def rAbempty : Re := .star (seqs [lit 47, .star rPchar])
def rAbsolute : Re := seqs [lit 47, opt (seqs [plus rPchar, rAbempty])]
def rRootless : Re := seqs [plus rPchar, rAbempty]
def rNetPath : Re := seqs [lit 47, lit 47, opt rUserAt, rHost, opt rPort, rAbempty]
def rHier : Re := alts [rNetPath, rAbsolute, rRootless, .eps]
def rPrivate : Re := .cls false [(0xe000, 0xf8ff), (0xf0000, 0xffffd), (0x100000, 0x10fffd)]
def rSlashQ : Re := .cls false [(47, 47), (63, 63)]
def rQuery : Re := seqs [lit 63, .star (alts [rPchar, rPrivate, rSlashQ])]
def rFrag : Re := seqs [lit 35, .star (alts [rPchar, rSlashQ])]
def rNc : Re := alts [rUnres, rPct, rSub, lit 64]
def rNoscheme : Re := seqs [plus rNc, rAbempty]
def rRel : Re := alts [rNetPath, rAbsolute, rNoscheme, .eps]
def rIri : Re := seqs [.cls false [(97, 122), (65, 90)],
  .star (.cls false [(97, 122), (65, 90), (48, 57), (43, 43), (45, 45), (46, 46)]), lit 58, rHier, opt rQuery, opt rFrag]
def rRelRef : Re := seqs [rRel, opt rQuery, opt rFrag]

set_option maxRecDepth 10000 in
theorem anyUriRe_eq : anyUriRe = alts [rIri, rRelRef] := by decide +kernel

theorem escRe_uri : escRe anyUriRe = true := by rw [anyUriRe_eq]; decide +kernel
theorem most_hash : most 35 anyUriRe = some 1 := by rw [anyUriRe_eq]; decide +kernel
theorem most_open : most 91 anyUriRe = some 1 := by rw [anyUriRe_eq]; decide +kernel
theorem most_close : most 93 anyUriRe = some 1 := by rw [anyUriRe_eq]; decide +kernel

end Uri
end Verif.DataTypes
