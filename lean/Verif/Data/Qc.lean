import Verif.Model.Gen

/-
The NFC_QC lines of lib/DerivedNormalizationProps.txt.
Written by tools/gen_data.py; do not edit.
-/

namespace Idn2.Shipped

def qc0 : List QcRow := []

def qc1 : List QcRow := []

def qc2 : List QcRow := []

def qc3 : List QcRow := []

def qc4 : List QcRow := [
  ⟨0x340, 0x341, 1⟩,
  ⟨0x343, 0x344, 1⟩,
  ⟨0x374, 0x374, 1⟩,
  ⟨0x37E, 0x37E, 1⟩,
  ⟨0x387, 0x387, 1⟩,
  ⟨0x958, 0x95F, 1⟩,
  ⟨0x9DC, 0x9DD, 1⟩,
  ⟨0x9DF, 0x9DF, 1⟩,
  ⟨0xA33, 0xA33, 1⟩,
  ⟨0xA36, 0xA36, 1⟩,
  ⟨0xA59, 0xA5B, 1⟩,
  ⟨0xA5E, 0xA5E, 1⟩,
  ⟨0xB5C, 0xB5D, 1⟩,
  ⟨0xF43, 0xF43, 1⟩,
  ⟨0xF4D, 0xF4D, 1⟩,
  ⟨0xF52, 0xF52, 1⟩,
  ⟨0xF57, 0xF57, 1⟩,
  ⟨0xF5C, 0xF5C, 1⟩,
  ⟨0xF69, 0xF69, 1⟩,
  ⟨0xF73, 0xF73, 1⟩,
  ⟨0xF75, 0xF76, 1⟩,
  ⟨0xF78, 0xF78, 1⟩,
  ⟨0xF81, 0xF81, 1⟩,
  ⟨0xF93, 0xF93, 1⟩,
  ⟨0xF9D, 0xF9D, 1⟩,
  ⟨0xFA2, 0xFA2, 1⟩,
  ⟨0xFA7, 0xFA7, 1⟩,
  ⟨0xFAC, 0xFAC, 1⟩,
  ⟨0xFB9, 0xFB9, 1⟩,
  ⟨0x1F71, 0x1F71, 1⟩,
  ⟨0x1F73, 0x1F73, 1⟩,
  ⟨0x1F75, 0x1F75, 1⟩,
  ⟨0x1F77, 0x1F77, 1⟩,
  ⟨0x1F79, 0x1F79, 1⟩,
  ⟨0x1F7B, 0x1F7B, 1⟩,
  ⟨0x1F7D, 0x1F7D, 1⟩,
  ⟨0x1FBB, 0x1FBB, 1⟩,
  ⟨0x1FBE, 0x1FBE, 1⟩,
  ⟨0x1FC9, 0x1FC9, 1⟩,
  ⟨0x1FCB, 0x1FCB, 1⟩,
  ⟨0x1FD3, 0x1FD3, 1⟩,
  ⟨0x1FDB, 0x1FDB, 1⟩,
  ⟨0x1FE3, 0x1FE3, 1⟩,
  ⟨0x1FEB, 0x1FEB, 1⟩,
  ⟨0x1FEE, 0x1FEF, 1⟩,
  ⟨0x1FF9, 0x1FF9, 1⟩,
  ⟨0x1FFB, 0x1FFB, 1⟩,
  ⟨0x1FFD, 0x1FFD, 1⟩,
  ⟨0x2000, 0x2001, 1⟩,
  ⟨0x2126, 0x2126, 1⟩,
  ⟨0x212A, 0x212B, 1⟩,
  ⟨0x2329, 0x2329, 1⟩,
  ⟨0x232A, 0x232A, 1⟩,
  ⟨0x2ADC, 0x2ADC, 1⟩,
  ⟨0xF900, 0xFA0D, 1⟩,
  ⟨0xFA10, 0xFA10, 1⟩,
  ⟨0xFA12, 0xFA12, 1⟩,
  ⟨0xFA15, 0xFA1E, 1⟩,
  ⟨0xFA20, 0xFA20, 1⟩,
  ⟨0xFA22, 0xFA22, 1⟩,
  ⟨0xFA25, 0xFA26, 1⟩,
  ⟨0xFA2A, 0xFA6D, 1⟩,
  ⟨0xFA70, 0xFAD9, 1⟩,
  ⟨0xFB1D, 0xFB1D, 1⟩,
  ⟨0xFB1F, 0xFB1F, 1⟩,
  ⟨0xFB2A, 0xFB36, 1⟩,
  ⟨0xFB38, 0xFB3C, 1⟩,
  ⟨0xFB3E, 0xFB3E, 1⟩,
  ⟨0xFB40, 0xFB41, 1⟩,
  ⟨0xFB43, 0xFB44, 1⟩,
  ⟨0xFB46, 0xFB4E, 1⟩,
  ⟨0x1D15E, 0x1D164, 1⟩,
  ⟨0x1D1BB, 0x1D1C0, 1⟩,
  ⟨0x2F800, 0x2FA1D, 1⟩,
  ⟨0x300, 0x304, 2⟩,
  ⟨0x306, 0x30C, 2⟩,
  ⟨0x30F, 0x30F, 2⟩,
  ⟨0x311, 0x311, 2⟩,
  ⟨0x313, 0x314, 2⟩,
  ⟨0x31B, 0x31B, 2⟩,
  ⟨0x323, 0x328, 2⟩,
  ⟨0x32D, 0x32E, 2⟩,
  ⟨0x330, 0x331, 2⟩,
  ⟨0x338, 0x338, 2⟩,
  ⟨0x342, 0x342, 2⟩,
  ⟨0x345, 0x345, 2⟩,
  ⟨0x653, 0x655, 2⟩,
  ⟨0x93C, 0x93C, 2⟩,
  ⟨0x9BE, 0x9BE, 2⟩,
  ⟨0x9D7, 0x9D7, 2⟩,
  ⟨0xB3E, 0xB3E, 2⟩,
  ⟨0xB56, 0xB56, 2⟩,
  ⟨0xB57, 0xB57, 2⟩,
  ⟨0xBBE, 0xBBE, 2⟩,
  ⟨0xBD7, 0xBD7, 2⟩,
  ⟨0xC56, 0xC56, 2⟩,
  ⟨0xCC2, 0xCC2, 2⟩,
  ⟨0xCD5, 0xCD6, 2⟩,
  ⟨0xD3E, 0xD3E, 2⟩,
  ⟨0xD57, 0xD57, 2⟩,
  ⟨0xDCA, 0xDCA, 2⟩,
  ⟨0xDCF, 0xDCF, 2⟩,
  ⟨0xDDF, 0xDDF, 2⟩,
  ⟨0x102E, 0x102E, 2⟩,
  ⟨0x1161, 0x1175, 2⟩,
  ⟨0x11A8, 0x11C2, 2⟩,
  ⟨0x1B35, 0x1B35, 2⟩,
  ⟨0x3099, 0x309A, 2⟩,
  ⟨0x110BA, 0x110BA, 2⟩,
  ⟨0x11127, 0x11127, 2⟩,
  ⟨0x1133E, 0x1133E, 2⟩,
  ⟨0x11357, 0x11357, 2⟩,
  ⟨0x114B0, 0x114B0, 2⟩,
  ⟨0x114BA, 0x114BA, 2⟩,
  ⟨0x114BD, 0x114BD, 2⟩,
  ⟨0x115AF, 0x115AF, 2⟩,
  ⟨0x11930, 0x11930, 2⟩]

def qc5 : List QcRow := []

def qc6 : List QcRow := []

def qc7 : List QcRow := []

def qc8 : List QcRow := []

def qc9 : List QcRow := []

def qc10 : List QcRow := []

def qc11 : List QcRow := []

def qc12 : List QcRow := []

def qc13 : List QcRow := []

def qc14 : List QcRow := []

def qc15 : List QcRow := []

def qc16 : List QcRow := []

def qc17 : List QcRow := []

def qc18 : List QcRow := []

def qc19 : List QcRow := []

def qc20 : List QcRow := []

def qc21 : List QcRow := []

def qc22 : List QcRow := []

def qc23 : List QcRow := []

def qc24 : List QcRow := []

def qc25 : List QcRow := []

def qc26 : List QcRow := []

def qc27 : List QcRow := []

def qc28 : List QcRow := []

def qc29 : List QcRow := []

def qc30 : List QcRow := []

def qc31 : List QcRow := []

def qc32 : List QcRow := []

def qc33 : List QcRow := []

def qc34 : List QcRow := []

def qc35 : List QcRow := []

def qc36 : List QcRow := []

def qc37 : List QcRow := []

def qc38 : List QcRow := []

def qc39 : List QcRow := []

/-- All the lines, in chunks. -/
def qcChunks : List (List QcRow) := [
  qc0, qc1, qc2, qc3, qc4, qc5, qc6, qc7,
  qc8, qc9, qc10, qc11, qc12, qc13, qc14, qc15,
  qc16, qc17, qc18, qc19, qc20, qc21, qc22, qc23,
  qc24, qc25, qc26, qc27, qc28, qc29, qc30, qc31,
  qc32, qc33, qc34, qc35, qc36, qc37, qc38, qc39]

/-- All the lines. -/
def qc : List QcRow := qcChunks.flatten

end Idn2.Shipped
