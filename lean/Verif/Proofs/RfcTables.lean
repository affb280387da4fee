import Verif.Proofs.RfcRefute
import Verif.Spec.RfcChanges

/-!
# Texts that are not derived from the rules of the RFC, or from those with one of the changes undone

The tables have been computed outside of Lean's kernel; that they are closed under the rules, and hence show what they are said to show, is checked by it.
-/

namespace Rfc5322.Rfc

theorem lost0 : ¬ Derivable (without .«UTF8-non-ascii») Name.«address-list» c!"é@b" := not_derivable_of_refutes
  [[0, 0, 8], [], [], [], [], [], [], [], [0, 4, 8], [], [], [], [0, 4, 8], [0, 4, 8], [], [], [0, 0, 8], [0, 0, 8], [0, 0, 8], [0, 0, 8], [0, 4, 8],
   [0, 4, 8], [], [0, 0, 8], [0, 0, 8], [], [], [], [], [], [], [], [], [], [], [], [], [], [], [], [], [], [], [0, 0, 8], [], [], [], [], [0, 0, 8],
   [0, 0, 8], [], [0, 4, 8], [], [], [], [], [0, 0, 8], [], [], [], [], [], [], [], [], [], [], [0, 8], [], [], [], [0, 0, 8], [], [], [], [0, 0, 8],
   [0, 0, 8], [0, 0, 8], [0, 12, 8]]
  (by decide +kernel)

theorem lost1 : ¬ Derivable (without .VCHAR) Name.«address-list» c!"\"\\é\"@b" := not_derivable_of_refutes
  [[0, 0, 0, 0, 0, 64], [], [], [], [2, 0, 0, 16], [], [], [], [2, 4, 0, 16, 32, 64], [], [], [], [2, 0, 8, 16, 32, 64], [2, 0, 8, 16, 32, 64], [], [],
   [0, 0, 8, 0, 0, 64], [0, 0, 8, 0, 0, 64], [0, 0, 8, 0, 0, 64], [0, 0, 8, 0, 0, 64], [0, 0, 8, 0, 32, 64], [0, 0, 8, 0, 32, 64], [],
   [0, 0, 8, 0, 0, 64], [0, 0, 8, 0, 0, 64], [], [], [], [], [], [], [], [], [], [], [], [], [], [], [], [], [], [], [0, 0, 8, 0, 0, 64], [], [], [],
   [], [0, 0, 8, 0, 0, 64], [0, 0, 8, 0, 0, 64], [], [2, 0, 8, 16, 32, 64], [], [], [], [], [0, 0, 8, 0, 0, 64], [], [], [], [], [], [], [], [], [], [],
   [0, 0, 0, 0, 64], [], [], [], [0, 0, 8, 0, 0, 64], [], [], [], [0, 4, 0, 0, 0, 64], [0, 4, 0, 0, 0, 64], [0, 4, 0, 0, 0, 64], [6, 4, 0, 112, 96, 64],
   [0, 0, 8]]
  (by decide +kernel)

theorem lost2 : ¬ Derivable (without .ctext) Name.«address-list» c!"(é)a@b" := not_derivable_of_refutes
  [[0, 0, 0, 16, 0, 64], [], [], [], [], [], [], [], [2, 4, 8, 16, 32, 64], [], [], [], [0, 0, 0, 16, 32, 64], [0, 0, 0, 16, 32, 64], [], [],
   [0, 4, 0, 16, 0, 64], [0, 4, 0, 16, 0, 64], [0, 4, 0, 16, 0, 64], [0, 4, 0, 16, 0, 64], [2, 4, 8, 16, 32, 64], [2, 4, 8, 16, 32, 64], [],
   [0, 4, 0, 16, 0, 64], [0, 4, 0, 112, 0, 64], [], [], [], [], [], [], [], [], [], [], [], [], [], [0, 0, 0, 64], [0, 0, 0, 64], [], [], [],
   [0, 4, 0, 112, 0, 64], [0, 0, 0, 64], [0, 0, 0, 64], [0, 0, 0, 64], [0, 0, 0, 64], [0, 4, 0, 16, 0, 64], [0, 4, 0, 16, 0, 64], [],
   [2, 4, 8, 16, 32, 64], [], [], [], [], [0, 4, 0, 112, 0, 64], [], [], [], [], [], [], [], [], [], [], [0, 0, 0, 0, 64], [0, 0, 0, 64], [0, 0, 0, 64],
   [], [0, 4, 0, 16, 0, 64], [], [], [], [0, 0, 0, 16, 0, 64], [0, 0, 0, 16, 0, 64], [0, 0, 0, 16, 0, 64], [2, 0, 120, 112, 96, 64], [0, 4]]
  (by decide +kernel)

theorem lost3 : ¬ Derivable (without .atext) Name.«address-list» c!"é@b" := not_derivable_of_refutes
  [[0, 0, 8], [], [], [], [], [], [], [], [2, 4, 8], [], [], [], [2, 4, 8], [2, 4, 8], [], [], [0, 0, 8], [0, 0, 8], [0, 0, 8], [0, 0, 8], [2, 4, 8],
   [2, 4, 8], [], [0, 0, 8], [0, 0, 8], [], [], [], [], [], [], [], [], [], [], [], [], [], [], [], [], [], [], [0, 0, 8], [], [], [], [], [0, 0, 8],
   [0, 0, 8], [], [2, 4, 8], [], [], [], [], [0, 0, 8], [], [], [], [], [], [], [], [], [], [], [0, 8], [], [], [], [0, 0, 8], [], [], [], [0, 0, 8],
   [0, 0, 8], [0, 0, 8], [0, 12, 8], [2]]
  (by decide +kernel)

theorem lost4 : ¬ Derivable (without .qtext) Name.«address-list» c!"\"é\"@b" := not_derivable_of_refutes
  [[0, 0, 0, 0, 32], [], [], [], [2, 0, 8], [], [], [], [2, 4, 8, 16, 32], [], [], [], [2, 4, 8, 16, 32], [2, 4, 8, 16, 32], [], [], [0, 4, 0, 0, 32],
   [0, 4, 0, 0, 32], [0, 4, 0, 0, 32], [0, 4, 0, 0, 32], [0, 0, 0, 16, 32], [0, 0, 0, 16, 32], [], [0, 4, 0, 0, 32], [0, 4, 0, 0, 32], [], [], [], [],
   [], [], [], [], [], [], [], [], [], [], [], [], [], [], [0, 4, 0, 0, 32], [], [], [], [], [0, 4, 0, 0, 32], [0, 4, 0, 0, 32], [], [2, 4, 8, 16, 32],
   [], [], [], [], [0, 4, 0, 0, 32], [], [], [], [], [], [], [], [], [], [], [0, 0, 0, 32], [], [], [], [0, 4, 0, 0, 32], [], [], [], [0, 0, 0, 0, 32],
   [0, 0, 0, 0, 32], [0, 0, 0, 0, 32], [2, 0, 56, 48, 32], [0, 4]]
  (by decide +kernel)

theorem lost5 : ¬ Derivable (without .dtext) Name.«address-list» c!"a@[é]" := not_derivable_of_refutes
  [[2], [], [], [], [], [], [], [], [2, 4, 8, 16, 32], [], [], [], [2, 4, 8, 16, 32], [2, 4, 8, 16, 32], [], [], [2, 0, 0, 16], [2, 0, 0, 16],
   [2, 0, 0, 16], [2, 0, 0, 16], [2, 4, 8, 16, 32], [2, 4, 8, 16, 32], [], [2, 0, 0, 16], [6, 0, 0, 16], [], [], [], [], [], [], [], [], [], [], [], [],
   [], [], [], [], [], [], [6, 0, 0, 16], [], [], [], [], [2, 0, 0, 16], [2, 0, 0, 16], [], [2, 4], [], [], [], [], [6, 0, 0, 16], [], [], [], [], [],
   [], [], [], [], [], [], [], [], [], [2, 0, 0, 16], [], [], [], [2], [2], [2], [14, 12, 8, 0, 32], [0, 0, 0, 16]]
  (by decide +kernel)

theorem lost6 : ¬ Derivable (without .«dot-atom-text») Name.«address-list» c!"a@b." := not_derivable_of_refutes
  [[2, 0, 8], [], [], [], [], [], [], [], [2, 4, 8, 16], [], [], [], [2, 4, 8, 16], [2, 4, 8, 16], [], [], [2, 0, 8], [2, 0, 8], [2, 0, 8], [2, 0, 8],
   [2, 4, 8, 16], [2, 4, 8, 16], [], [2, 0, 8], [30, 0, 24], [], [], [], [], [], [], [], [], [], [], [], [], [], [8], [8], [], [], [], [30, 0, 24], [8],
   [8], [8], [8], [2, 0, 8], [2, 0, 8], [], [2, 4, 8, 16], [], [], [], [], [30, 0, 24], [], [], [], [], [], [], [], [], [], [], [0, 8], [8], [8], [],
   [2, 0, 8], [], [], [], [2, 0, 8], [2, 0, 8], [2, 0, 8], [30, 28, 24, 16]]
  (by decide +kernel)

theorem lost7 : ¬ Derivable (without .word) Name.«address-list» c!"=?a?q?,?=<b@c>" := not_derivable_of_refutes
  [[0, 0, 8, 0, 32, 0, 0, 0, 0, 0, 2048, 0, 8192], [], [], [], [], [], [], [], [2, 4, 8, 16, 32, 64, 128, 256, 512, 1024, 2048, 4096, 8192, 16384], [],
   [], [], [2, 4, 8, 16, 32, 64, 128, 256, 512, 1024, 2048, 4096, 8192, 16384], [2, 4, 8, 16, 32, 64, 128, 256, 512, 1024, 2048, 4096, 8192, 16384], [],
   [], [2, 4, 8, 16, 32, 64, 0, 256, 512, 0, 2048, 0, 8192], [126, 124, 120, 112, 96, 64, 0, 768, 512, 0, 2048, 0, 8192],
   [126, 124, 120, 112, 96, 64, 0, 768, 512, 0, 2048, 0, 8192], [126, 124, 120, 112, 96, 64, 0, 768, 512, 0, 2048, 0, 8192],
   [2, 4, 8, 16, 32, 64, 128, 256, 512, 1024, 2048, 4096, 8192, 16384], [2, 4, 8, 16, 32, 64, 128, 256, 512, 1024, 2048, 4096, 8192, 16384], [],
   [126, 124, 120, 112, 96, 64, 0, 768, 512, 0, 2048, 0, 8192], [126, 124, 120, 112, 96, 64, 0, 768, 512, 0, 14336, 0, 8192], [], [], [], [], [], [],
   [], [], [], [], [], [], [], [0, 0, 0, 0, 0, 0, 0, 16384, 16384, 16384, 8192], [0, 0, 0, 0, 0, 0, 0, 16384, 16384, 16384, 8192],
   [0, 0, 0, 0, 0, 0, 0, 16384, 16384, 16384], [0, 0, 0, 0, 0, 0, 0, 0, 0, 16384], [], [126, 124, 120, 112, 96, 64, 0, 768, 512, 0, 14336, 0, 8192],
   [0, 0, 0, 0, 0, 0, 16384, 16384, 16384, 16384, 8192], [0, 0, 0, 0, 0, 0, 16384, 16384, 16384, 16384, 8192],
   [0, 0, 0, 0, 0, 0, 16512, 16384, 16384, 16384, 8192], [0, 0, 0, 0, 0, 0, 0, 0, 0, 0, 8192],
   [126, 124, 120, 112, 96, 64, 0, 768, 512, 0, 2048, 0, 8192], [126, 124, 120, 112, 96, 64, 0, 768, 512, 0, 2048, 0, 8192], [],
   [2, 4, 8, 16, 32, 64, 128, 256, 512, 1024, 2048, 4096, 8192, 16384], [], [], [], [], [126, 124, 120, 112, 96, 64, 0, 768, 512, 0, 14336, 0, 8192],
   [], [], [], [], [], [], [], [], [], [], [0, 0, 0, 0, 0, 0, 0, 0, 0, 0, 0, 8192], [0, 0, 0, 0, 0, 0, 16384, 16384, 16384, 16384, 8192],
   [0, 0, 0, 0, 0, 0, 16384, 16384, 16384, 16384, 8192], [0, 0, 0, 0, 0, 0, 128], [126, 124, 120, 112, 96, 64, 0, 768, 512, 0, 2048, 0, 8192], [], [],
   [512], [0, 0, 8, 0, 32, 0, 0, 0, 0, 0, 2048, 0, 8192], [0, 0, 8, 0, 32, 0, 0, 0, 0, 0, 2048, 0, 8192],
   [0, 0, 8, 0, 32, 0, 0, 0, 0, 0, 2048, 0, 8192], [2, 0, 8, 0, 32, 0, 128, 0, 32256, 31744, 30720, 28672, 24576, 16384]]
  (by decide +kernel)

theorem lost8 : ¬ Derivable (without .token) Name.«address-list» c!"=?\\?q?a?=<b@c>" := not_derivable_of_refutes
  [[0, 0, 0, 0, 32, 0, 128, 0, 0, 0, 2048, 0, 8192], [], [], [], [], [], [], [], [2, 4, 8, 16, 32, 64, 128, 256, 512, 1024, 2048, 4096, 8192, 16384],
   [], [0, 0, 16], [], [2, 4, 0, 16, 32, 64, 128, 256, 512, 1024, 2048, 4096, 8192, 16384],
   [2, 4, 16, 16, 32, 64, 128, 256, 512, 1024, 2048, 4096, 8192, 16384], [], [], [2, 4, 0, 16, 32, 64, 128, 256, 512, 0, 2048, 0, 8192],
   [6, 4, 0, 1008, 992, 960, 896, 768, 512, 0, 2048, 0, 8192], [6, 4, 0, 1008, 992, 960, 896, 768, 512, 0, 2048, 0, 8192],
   [6, 4, 0, 1008, 992, 960, 896, 768, 512, 0, 2048, 0, 8192], [2, 4, 0, 16, 32, 64, 128, 256, 512, 1024, 2048, 4096, 8192, 16384],
   [2, 4, 16, 16, 32, 64, 128, 256, 512, 1024, 2048, 4096, 8192, 16384], [], [6, 4, 0, 1008, 992, 960, 896, 768, 512, 0, 2048, 0, 8192],
   [6, 4, 0, 1008, 992, 960, 896, 768, 512, 0, 14336, 0, 8192], [], [], [], [], [], [], [], [], [], [], [], [], [],
   [0, 0, 0, 16384, 16384, 16384, 16384, 16384, 16384, 16384, 8192], [0, 0, 0, 16384, 16384, 16384, 16384, 16384, 16384, 16384, 8192],
   [0, 0, 0, 16384, 16384, 16384, 16384, 16384, 16384, 16384], [0, 0, 0, 0, 0, 0, 0, 0, 0, 16384], [],
   [6, 4, 0, 1008, 992, 960, 896, 768, 512, 0, 14336, 0, 8192], [0, 0, 0, 16384, 16384, 16384, 16384, 16384, 16384, 16384, 8192],
   [0, 0, 0, 16384, 16384, 16384, 16384, 16384, 16384, 16384, 8192], [0, 0, 0, 16384, 16384, 16384, 16384, 16384, 16384, 16384, 8192],
   [0, 0, 0, 0, 0, 0, 0, 0, 0, 0, 8192], [6, 4, 0, 1008, 992, 960, 896, 768, 512, 0, 2048, 0, 8192],
   [6, 4, 0, 1008, 992, 960, 896, 768, 512, 0, 2048, 0, 8192], [], [2, 4, 0, 16, 32, 64, 128, 256, 512, 1024, 2048, 4096, 8192, 16384], [], [], [], [],
   [6, 4, 0, 1008, 992, 960, 896, 768, 512, 0, 14336, 0, 8192], [], [], [], [], [], [], [], [], [], [], [0, 0, 0, 0, 0, 0, 0, 0, 0, 0, 0, 8192],
   [0, 0, 0, 16384, 16384, 16384, 16384, 16384, 16384, 16384, 8192], [0, 0, 0, 16384, 16384, 16384, 16384, 16384, 16384, 16384, 8192], [],
   [6, 4, 0, 1008, 992, 960, 896, 768, 512, 0, 2048, 0, 8192], [], [], [], [0, 0, 0, 0, 32, 0, 128, 0, 0, 0, 2048, 0, 8192],
   [0, 0, 0, 0, 32, 0, 128, 0, 0, 0, 2048, 0, 8192], [0, 0, 0, 0, 32, 0, 128, 0, 0, 0, 2048, 0, 8192],
   [2, 0, 8, 0, 32, 0, 128, 0, 32256, 31744, 30720, 28672, 24576, 16384]]
  (by decide +kernel)

theorem lost9 : ¬ Derivable (without .«obs-phrase») Name.«address-list» c!"a@b <c@d>" := not_derivable_of_refutes
  [[2, 0, 8, 0, 0, 64, 0, 256], [], [], [], [], [], [], [0, 0, 0, 16], [2, 4, 8, 0, 32, 64, 128, 256, 512], [0, 0, 0, 16], [], [0, 0, 0, 16],
   [2, 4, 8, 0, 32, 64, 128, 256, 512], [2, 4, 8, 0, 32, 64, 128, 256, 512], [], [0, 0, 0, 16], [2, 0, 8, 0, 0, 64, 0, 256],
   [2, 0, 24, 0, 0, 64, 0, 256], [2, 0, 8, 0, 0, 64, 0, 256], [2, 0, 24, 0, 0, 64, 0, 256], [2, 4, 8, 0, 32, 64, 128, 256, 512],
   [2, 4, 8, 0, 32, 64, 128, 256, 512], [], [2, 0, 24, 0, 0, 64, 0, 256], [2, 0, 24, 0, 0, 64, 0, 256], [], [], [], [], [], [], [], [], [], [], [], [],
   [], [24, 0, 512, 512, 512, 256], [24, 0, 512, 512, 512, 256], [0, 0, 512, 512, 512], [0, 0, 0, 512, 512], [], [2, 0, 24, 0, 0, 64, 0, 256],
   [24, 0, 512, 512, 512, 256], [24, 0, 512, 512, 512, 256], [24, 0, 512, 528, 512, 256], [24, 0, 0, 0, 0, 256], [2, 0, 24, 0, 0, 64, 0, 256],
   [2, 0, 24, 0, 0, 64, 0, 256], [], [2, 4, 8, 0, 32, 64, 128, 256, 512], [], [], [], [], [2, 0, 24, 0, 0, 64, 0, 256], [0, 0, 0, 16], [], [], [], [],
   [], [], [], [], [], [0, 24, 0, 0, 0, 0, 256], [24, 0, 512, 512, 512, 256], [24, 0, 512, 512, 512, 256], [], [2, 0, 24, 0, 0, 64, 0, 256], [], [], [],
   [2, 0, 8, 0, 0, 64, 0, 256], [2, 0, 8, 0, 0, 64, 0, 256], [2, 0, 8, 0, 0, 64, 0, 256], [14, 12, 8, 0, 992, 960, 896, 768, 512]]
  (by decide +kernel)

theorem lost10 : ¬ Derivable (without .«angle-addr») Name.«address-list» c!"<>" := not_derivable_of_refutes
  [[], [], [], [], [], [], [], [], [2, 4], [], [], [], [2, 4], [2, 4], [], [], [], [], [], [], [2, 4], [2, 4], [], [], [], [], [], [], [], [], [], [],
   [], [], [], [], [], [], [], [], [], [], [], [], [], [], [], [], [], [], [], [2, 4], [], [], [], [], [], [], [], [], [], [], [], [], [], [], [], [],
   [], [], [], [], [], [], [], [], [], [], [6, 4]]
  (by decide +kernel)

theorem lost11 : ¬ Derivable (without .group) Name.«address-list» c!"g:" := not_derivable_of_refutes
  [[2], [], [], [], [], [], [], [], [2, 4], [], [], [], [2, 4], [2, 4], [], [], [2], [2], [2], [2], [2, 4], [2, 4], [], [2], [2], [], [], [], [], [],
   [], [], [], [], [], [], [], [], [], [], [], [], [], [2], [], [], [], [], [2], [2], [], [2, 4], [], [], [], [], [2], [], [], [], [], [], [], [], [],
   [], [], [], [], [], [], [2], [], [], [], [2], [2], [2], [6, 4]]
  (by decide +kernel)

theorem lost12 : ¬ Derivable (without .«address-list») Name.«address-list» c!"a@b;c@d" := not_derivable_of_refutes
  [[2, 0, 8, 0, 32, 0, 128], [], [], [], [], [], [], [], [2, 4, 8, 16, 32, 64, 128], [], [], [], [2, 4, 8, 16, 32, 64, 128], [2, 4, 8, 16, 32, 64, 128],
   [], [], [2, 0, 8, 0, 32, 0, 128], [2, 0, 8, 0, 32, 0, 128], [2, 0, 8, 0, 32, 0, 128], [2, 0, 8, 0, 32, 0, 128], [2, 4, 8, 16, 32, 64, 128],
   [2, 4, 8, 16, 32, 64, 128], [], [2, 0, 8, 0, 32, 0, 128], [14, 0, 8, 0, 224, 0, 128], [], [], [], [], [], [], [], [], [], [], [], [], [],
   [8, 0, 0, 0, 128], [8, 0, 0, 0, 128], [], [], [], [14, 0, 8, 0, 224, 0, 128], [8, 0, 0, 0, 128], [8, 0, 0, 0, 128], [8, 0, 0, 0, 128],
   [8, 0, 0, 0, 128], [2, 0, 8, 0, 32, 0, 128], [2, 0, 8, 0, 32, 0, 128], [], [2, 4, 8, 16, 32, 64, 128], [], [], [], [], [14, 0, 8, 0, 224, 0, 128],
   [], [], [], [], [], [], [], [], [], [], [0, 8, 0, 0, 0, 128], [8, 0, 0, 0, 128], [8, 0, 0, 0, 128], [], [2, 0, 8, 0, 32, 0, 128], [], [], [],
   [2, 0, 8, 0, 32, 0, 128], [2, 0, 8, 0, 32, 0, 128], [2, 0, 8, 0, 32, 0, 128], [254, 252, 248, 240, 224, 192, 128]]
  (by decide +kernel)

theorem lost13 : ¬ Derivable (without .«addr-spec») Name.«address-list» c!"a@b:25" := not_derivable_of_refutes
  [[2, 0, 8], [], [], [0, 0, 0, 0, 32, 64], [], [], [], [], [2, 4, 8, 16, 32, 64], [], [], [], [2, 4, 8, 16, 32, 64], [2, 4, 8, 16, 32, 64], [], [],
   [2, 0, 8, 0, 32, 64], [2, 0, 8, 0, 96, 64], [2, 0, 8, 0, 96, 64], [2, 0, 8, 0, 96, 64], [2, 4, 8, 16, 32, 64], [2, 4, 8, 16, 32, 64], [],
   [2, 0, 8, 0, 96, 64], [14, 0, 8, 0, 96, 64], [], [], [], [], [0, 0, 0, 0, 96, 64], [], [0, 0, 0, 0, 64], [], [], [0, 0, 0, 0, 96, 64],
   [0, 0, 0, 0, 64], [0, 0, 0, 0, 64], [], [24, 0, 16], [8], [], [], [16, 0, 16], [14, 0, 8, 0, 96, 64], [8], [24, 0, 16], [8], [8],
   [2, 0, 8, 0, 96, 64], [2, 0, 8, 0, 96, 64], [], [2, 4, 8, 16, 32, 64], [], [], [], [], [14, 0, 8, 0, 96, 64], [], [], [0, 0, 0, 0, 96, 64],
   [0, 0, 0, 0, 64], [0, 0, 0, 0, 96, 64], [0, 0, 0, 0, 64], [0, 0, 0, 0, 64], [], [], [0, 16], [0, 8], [8], [24, 0, 16], [], [2, 0, 8, 0, 96, 64], [],
   [], [], [2, 0, 8, 0, 96, 64], [2, 0, 8, 0, 96, 64], [2, 0, 8, 0, 96, 64], [126, 124, 120, 112, 96, 64]]
  (by decide +kernel)

theorem lost14 : ¬ Derivable (without .«obs-hour») Name.«date-time» c!"1Jan001:00UT" := not_derivable_of_refutes
  [[0, 4, 8, 16, 0, 0, 0, 0, 0, 0, 2048, 4096], [], [], [2, 0, 0, 0, 32, 64, 128, 0, 512, 1024], [], [], [], [],
   [2, 4, 8, 16, 32, 64, 128, 256, 512, 1024, 2048, 4096], [], [], [], [2, 4, 8, 16, 32, 64, 128, 256, 512, 1024, 2048, 4096],
   [2, 4, 8, 16, 32, 64, 128, 256, 512, 1024, 2048, 4096], [], [], [2, 4, 8, 16, 32, 64, 128, 0, 512, 1024, 2048, 4096],
   [254, 252, 248, 240, 224, 192, 128, 0, 7680, 7168, 6144, 4096], [254, 252, 248, 240, 224, 192, 128, 0, 7680, 7168, 6144, 4096],
   [254, 252, 248, 240, 224, 192, 128, 0, 7680, 7168, 6144, 4096], [2, 4, 8, 16, 32, 64, 128, 256, 512, 1024, 2048, 4096],
   [2, 4, 8, 16, 32, 64, 128, 256, 512, 1024, 2048, 4096], [], [254, 252, 248, 240, 224, 192, 128, 0, 7680, 7168, 6144, 4096],
   [254, 252, 248, 240, 224, 192, 128, 0, 7680, 7168, 6144, 4096], [], [], [], [64], [2, 0, 0, 0, 96, 192, 128, 0, 1536, 1024], [0, 16],
   [0, 0, 0, 0, 64, 128, 0, 0, 1024], [0, 0, 0, 0, 0, 5120], [0, 0, 0, 0, 0, 1024], [0, 0, 0, 0, 64, 128, 0, 0, 1024],
   [0, 0, 0, 0, 64, 128, 0, 0, 1024], [0, 0, 0, 0, 64, 128, 0, 0, 1024], [0, 0, 0, 0, 0, 0, 0, 0, 0, 0, 4096], [256, 256, 256, 256, 256, 256, 256], [],
   [], [], [256, 256, 256, 256, 256, 256, 256], [254, 252, 248, 240, 224, 192, 128, 0, 7680, 7168, 6144, 4096], [], [256, 256, 256, 256, 256, 256, 256],
   [], [], [254, 252, 248, 240, 224, 192, 128, 0, 7680, 7168, 6144, 4096], [254, 252, 248, 240, 224, 192, 128, 0, 7680, 7168, 6144, 4096], [],
   [2, 4, 8, 16, 32, 64, 128, 256, 512, 1024, 2048, 4096], [], [], [], [], [254, 252, 248, 240, 224, 192, 128, 0, 7680, 7168, 6144, 4096], [], [],
   [2, 0, 0, 0, 96, 192, 128, 0, 1536, 1024], [0, 0, 0, 0, 64, 128, 0, 0, 1024], [0, 0, 0, 0, 64, 128, 0, 0, 1024], [0, 0, 0, 0, 64, 128, 0, 0, 1024],
   [0, 0, 0, 0, 64, 128, 0, 0, 1024], [0, 0, 0, 0, 0, 0, 0, 0, 0, 0, 4096], [], [], [], [], [256, 256, 256, 256, 256, 256, 256], [],
   [254, 252, 248, 240, 224, 192, 128, 0, 7680, 7168, 6144, 4096], [], [], [], [254, 252, 248, 240, 224, 192, 128, 0, 7680, 7168, 6144, 4096],
   [254, 252, 248, 240, 224, 192, 128, 0, 7680, 7168, 6144, 4096], [254, 252, 248, 240, 224, 192, 128, 0, 7680, 7168, 6144, 4096],
   [8190, 8188, 8184, 8176, 8160, 8128, 8064, 7936, 7680, 7168, 6144, 4096]]
  (by decide +kernel)

theorem lost15 : ¬ Derivable (without .time) Name.«date-time» c!"1Jan0001:00" := not_derivable_of_refutes
  [[0, 4, 8, 16], [], [], [2, 0, 0, 0, 32, 64, 128, 256, 0, 1024, 2048], [], [], [], [], [2, 4, 8, 16, 32, 64, 128, 256, 512, 1024, 2048], [], [], [],
   [2, 4, 8, 16, 32, 64, 128, 256, 512, 1024, 2048], [2, 4, 8, 16, 32, 64, 128, 256, 512, 1024, 2048], [], [],
   [2, 4, 8, 16, 32, 64, 128, 256, 0, 1024, 2048], [510, 508, 504, 496, 480, 448, 384, 256, 0, 3072, 2048],
   [510, 508, 504, 496, 480, 448, 384, 256, 0, 3072, 2048], [510, 508, 504, 496, 480, 448, 384, 256, 0, 3072, 2048],
   [2, 4, 8, 16, 32, 64, 128, 256, 512, 1024, 2048], [2, 4, 8, 16, 32, 64, 128, 256, 512, 1024, 2048], [],
   [510, 508, 504, 496, 480, 448, 384, 256, 0, 3072, 2048], [510, 508, 504, 496, 480, 448, 384, 256, 0, 3072, 2048], [], [], [], [64],
   [2, 0, 0, 0, 96, 192, 384, 256, 0, 3072, 2048], [0, 16], [0, 0, 0, 0, 64, 128, 256, 0, 0, 2048], [], [0, 0, 0, 0, 0, 0, 2048, 2048],
   [2, 0, 0, 0, 96, 192, 384, 256, 0, 3072, 2048], [0, 0, 0, 0, 64, 128, 256, 0, 0, 2048], [0, 0, 0, 0, 64, 128, 256, 0, 0, 2048], [],
   [512, 512, 512, 512, 512, 512, 512, 512], [], [], [], [512, 512, 512, 512, 512, 512, 512, 512],
   [510, 508, 504, 496, 480, 448, 384, 256, 0, 3072, 2048], [], [512, 512, 512, 512, 512, 512, 512, 512], [], [],
   [510, 508, 504, 496, 480, 448, 384, 256, 0, 3072, 2048], [510, 508, 504, 496, 480, 448, 384, 256, 0, 3072, 2048], [],
   [2, 4, 8, 16, 32, 64, 128, 256, 512, 1024, 2048], [], [], [], [], [510, 508, 504, 496, 480, 448, 384, 256, 0, 3072, 2048], [], [],
   [2, 0, 0, 0, 96, 192, 384, 256, 0, 3072, 2048], [0, 0, 0, 0, 64, 128, 256, 0, 0, 2048], [2, 0, 0, 0, 96, 192, 384, 256, 0, 3072, 2048],
   [0, 0, 0, 0, 64, 128, 256, 0, 0, 2048], [0, 0, 0, 0, 64, 128, 256, 0, 0, 2048], [], [], [], [], [], [512, 512, 512, 512, 512, 512, 512, 512], [],
   [510, 508, 504, 496, 480, 448, 384, 256, 0, 3072, 2048], [], [], [], [510, 508, 504, 496, 480, 448, 384, 256, 0, 3072, 2048],
   [510, 508, 504, 496, 480, 448, 384, 256, 0, 3072, 2048], [510, 508, 504, 496, 480, 448, 384, 256, 0, 3072, 2048],
   [4094, 4092, 4088, 4080, 4064, 4032, 3968, 3840, 3584, 3072, 2048]]
  (by decide +kernel)

theorem lost16 : ¬ Derivable (without .zone) Name.«date-time» c!"1Jan0001:00UTC" := not_derivable_of_refutes
  [[0, 4, 8, 16, 0, 0, 0, 0, 0, 0, 0, 4096, 8192, 16384], [], [], [2, 0, 0, 0, 32, 64, 128, 256, 0, 1024, 2048], [], [], [], [],
   [2, 4, 8, 16, 32, 64, 128, 256, 512, 1024, 2048, 4096, 8192, 16384], [], [], [], [2, 4, 8, 16, 32, 64, 128, 256, 512, 1024, 2048, 4096, 8192, 16384],
   [2, 4, 8, 16, 32, 64, 128, 256, 512, 1024, 2048, 4096, 8192, 16384], [], [], [2, 4, 8, 16, 32, 64, 128, 256, 0, 1024, 2048, 4096, 8192, 16384],
   [510, 508, 504, 496, 480, 448, 384, 256, 0, 31744, 30720, 28672, 24576, 16384],
   [510, 508, 504, 496, 480, 448, 384, 256, 0, 31744, 30720, 28672, 24576, 16384],
   [510, 508, 504, 496, 480, 448, 384, 256, 0, 31744, 30720, 28672, 24576, 16384], [2, 4, 8, 16, 32, 64, 128, 256, 512, 1024, 2048, 4096, 8192, 16384],
   [2, 4, 8, 16, 32, 64, 128, 256, 512, 1024, 2048, 4096, 8192, 16384], [],
   [510, 508, 504, 496, 480, 448, 384, 256, 0, 31744, 30720, 28672, 24576, 16384],
   [510, 508, 504, 496, 480, 448, 384, 256, 0, 31744, 30720, 28672, 24576, 16384], [10240], [], [], [64],
   [2, 0, 0, 0, 96, 192, 384, 256, 0, 3072, 2048], [0, 16], [0, 0, 0, 0, 64, 128, 256, 0, 0, 2048], [0, 0, 0, 0, 0, 0, 10240, 10240],
   [0, 0, 0, 0, 0, 0, 2048, 2048], [2, 0, 0, 0, 96, 192, 384, 256, 0, 3072, 2048], [0, 0, 0, 0, 64, 128, 256, 0, 0, 2048],
   [0, 0, 0, 0, 64, 128, 256, 0, 0, 2048], [0, 0, 0, 0, 0, 0, 0, 0, 0, 0, 0, 8192], [512, 512, 512, 512, 512, 512, 512, 512], [], [], [],
   [512, 512, 512, 512, 512, 512, 512, 512], [510, 508, 504, 496, 480, 448, 384, 256, 0, 31744, 30720, 28672, 24576, 16384], [],
   [512, 512, 512, 512, 512, 512, 512, 512], [], [], [510, 508, 504, 496, 480, 448, 384, 256, 0, 31744, 30720, 28672, 24576, 16384],
   [510, 508, 504, 496, 480, 448, 384, 256, 0, 31744, 30720, 28672, 24576, 16384], [],
   [2, 4, 8, 16, 32, 64, 128, 256, 512, 1024, 2048, 4096, 8192, 16384], [], [], [], [],
   [510, 508, 504, 496, 480, 448, 384, 256, 0, 31744, 30720, 28672, 24576, 16384], [], [], [2, 0, 0, 0, 96, 192, 384, 256, 0, 3072, 2048],
   [0, 0, 0, 0, 64, 128, 256, 0, 0, 2048], [2, 0, 0, 0, 96, 192, 384, 256, 0, 3072, 2048], [0, 0, 0, 0, 64, 128, 256, 0, 0, 2048],
   [0, 0, 0, 0, 64, 128, 256, 0, 0, 2048], [0, 0, 0, 0, 0, 0, 0, 0, 0, 0, 0, 8192], [], [], [], [], [512, 512, 512, 512, 512, 512, 512, 512], [],
   [510, 508, 504, 496, 480, 448, 384, 256, 0, 31744, 30720, 28672, 24576, 16384], [], [], [],
   [510, 508, 504, 496, 480, 448, 384, 256, 0, 31744, 30720, 28672, 24576, 16384],
   [510, 508, 504, 496, 480, 448, 384, 256, 0, 31744, 30720, 28672, 24576, 16384],
   [510, 508, 504, 496, 480, 448, 384, 256, 0, 31744, 30720, 28672, 24576, 16384],
   [32766, 32764, 32760, 32752, 32736, 32704, 32640, 32512, 32256, 31744, 30720, 28672, 24576, 16384]]
  (by decide +kernel)

theorem new0 : ¬ Derivable rfc Name.«address-list» c!"é@b" := not_derivable_of_refutes
  [[0, 0, 8], [], [], [], [], [], [], [], [0, 4, 8], [], [], [], [0, 4, 8], [0, 4, 8], [], [], [0, 0, 8], [0, 0, 8], [0, 0, 8], [0, 0, 8], [0, 4, 8],
   [0, 4, 8], [], [0, 0, 8], [0, 0, 8], [], [], [], [], [], [], [], [], [], [], [], [], [0, 0, 8], [], [], [], [], [], [0, 0, 8], [], [], [], [],
   [0, 0, 8], [0, 0, 8], [], [0, 4, 8], [], [], [], [], [0, 0, 8], [], [], [], [], [], [], [], [0, 0, 8], [], [], [0, 8], [], [], [], [0, 0, 8],
   [0, 0, 8], [], [], [0, 0, 8], [0, 0, 8], [0, 0, 8], [0, 12, 8]]
  (by decide +kernel)

theorem new1 : ¬ Derivable rfc Name.«address-list» c!"a@b." := not_derivable_of_refutes
  [[2, 0, 8], [], [], [], [], [], [], [], [2, 4, 8, 16], [], [], [], [2, 4, 8, 16], [2, 4, 8, 16], [], [], [2, 0, 8], [2, 0, 8], [2, 0, 8], [2, 0, 8],
   [2, 4, 8, 16], [2, 4, 8, 16], [], [2, 0, 8], [2, 0, 24], [], [], [], [], [], [], [], [], [], [], [], [], [2, 0, 8], [8], [8], [], [], [], [2, 0, 24],
   [8], [8], [8], [8], [2, 0, 8], [2, 0, 8], [], [2, 4, 8, 16], [], [], [], [], [2, 0, 24], [], [], [], [], [], [], [], [2, 0, 8], [], [], [0, 8], [8],
   [8], [], [2, 0, 8], [2, 0, 8], [], [], [2, 0, 8], [2, 0, 8], [2, 0, 8], [30, 28, 24, 16]]
  (by decide +kernel)

theorem new2 : ¬ Derivable rfc Name.«address-list» c!"=?a?q?,?=<b@c>" := not_derivable_of_refutes
  [[0, 0, 8, 0, 32, 0, 0, 0, 0, 0, 2048, 0, 8192], [], [], [], [], [], [], [], [2, 4, 8, 16, 32, 64, 128, 256, 512, 1024, 2048, 4096, 8192, 16384], [],
   [], [], [2, 4, 8, 16, 32, 64, 128, 256, 512, 1024, 2048, 4096, 8192, 16384], [2, 4, 8, 16, 32, 64, 128, 256, 512, 1024, 2048, 4096, 8192, 16384], [],
   [], [2, 4, 8, 16, 32, 64, 0, 256, 512, 0, 2048, 0, 8192], [126, 124, 120, 112, 96, 64, 0, 768, 512, 0, 2048, 0, 8192],
   [126, 124, 120, 112, 96, 64, 0, 768, 512, 0, 2048, 0, 8192], [126, 124, 120, 112, 96, 64, 0, 768, 512, 0, 2048, 0, 8192],
   [2, 4, 8, 16, 32, 64, 128, 256, 512, 1024, 2048, 4096, 8192, 16384], [2, 4, 8, 16, 32, 64, 128, 256, 512, 1024, 2048, 4096, 8192, 16384], [],
   [126, 124, 120, 112, 96, 64, 0, 768, 512, 0, 2048, 0, 8192], [126, 124, 120, 112, 96, 64, 0, 768, 512, 0, 2048, 0, 8192], [], [], [], [], [], [], [],
   [], [], [], [], [], [0, 0, 8, 0, 32, 0, 0, 0, 0, 0, 2048, 0, 8192], [0, 0, 0, 0, 0, 0, 0, 16384, 16384, 16384, 8192],
   [0, 0, 0, 0, 0, 0, 0, 16384, 16384, 16384, 8192], [0, 0, 0, 0, 0, 0, 0, 16384, 16384, 16384], [0, 0, 0, 0, 0, 0, 0, 0, 0, 16384], [],
   [126, 124, 120, 112, 96, 64, 0, 768, 512, 0, 2048, 0, 8192], [0, 0, 0, 0, 0, 0, 16384, 16384, 16384, 16384, 8192],
   [0, 0, 0, 0, 0, 0, 16384, 16384, 16384, 16384, 8192], [0, 0, 0, 0, 0, 0, 16512, 16384, 16384, 16384, 8192], [0, 0, 0, 0, 0, 0, 0, 0, 0, 0, 8192],
   [126, 124, 120, 112, 96, 64, 0, 768, 512, 0, 2048, 0, 8192], [126, 124, 120, 112, 96, 64, 0, 768, 512, 0, 2048, 0, 8192], [],
   [2, 4, 8, 16, 32, 64, 128, 256, 512, 1024, 2048, 4096, 8192, 16384], [], [], [], [], [126, 124, 120, 112, 96, 64, 0, 768, 512, 0, 2048, 0, 8192], [],
   [], [], [], [], [], [], [0, 0, 8, 0, 32, 0, 0, 0, 0, 0, 2048, 0, 8192], [], [], [0, 0, 0, 0, 0, 0, 0, 0, 0, 0, 0, 8192],
   [0, 0, 0, 0, 0, 0, 16384, 16384, 16384, 16384, 8192], [0, 0, 0, 0, 0, 0, 16384, 16384, 16384, 16384, 8192], [0, 0, 0, 0, 0, 0, 128],
   [126, 124, 120, 112, 96, 64, 0, 768, 512, 0, 2048, 0, 8192], [126, 124, 120, 112, 96, 64, 0, 768, 512, 0, 2048, 0, 8192], [], [512],
   [0, 0, 8, 0, 32, 0, 0, 0, 0, 0, 2048, 0, 8192], [0, 0, 8, 0, 32, 0, 0, 0, 0, 0, 2048, 0, 8192], [0, 0, 8, 0, 32, 0, 0, 0, 0, 0, 2048, 0, 8192],
   [2, 0, 8, 0, 32, 0, 128, 0, 32256, 31744, 30720, 28672, 24576, 16384]]
  (by decide +kernel)

theorem new3 : ¬ Derivable rfc Name.«address-list» c!"=?\\?q?a?=<b@c>" := not_derivable_of_refutes
  [[0, 0, 0, 0, 32, 0, 128, 0, 0, 0, 2048, 0, 8192], [], [], [], [], [], [], [], [2, 4, 8, 16, 32, 64, 128, 256, 512, 1024, 2048, 4096, 8192, 16384],
   [], [0, 0, 16], [], [2, 4, 0, 16, 32, 64, 128, 256, 512, 1024, 2048, 4096, 8192, 16384],
   [2, 4, 16, 16, 32, 64, 128, 256, 512, 1024, 2048, 4096, 8192, 16384], [], [], [2, 4, 0, 16, 32, 64, 128, 256, 512, 0, 2048, 0, 8192],
   [6, 4, 0, 1008, 992, 960, 896, 768, 512, 0, 2048, 0, 8192], [6, 4, 0, 1008, 992, 960, 896, 768, 512, 0, 2048, 0, 8192],
   [6, 4, 0, 1008, 992, 960, 896, 768, 512, 0, 2048, 0, 8192], [2, 4, 0, 16, 32, 64, 128, 256, 512, 1024, 2048, 4096, 8192, 16384],
   [2, 4, 16, 16, 32, 64, 128, 256, 512, 1024, 2048, 4096, 8192, 16384], [], [6, 4, 0, 1008, 992, 960, 896, 768, 512, 0, 2048, 0, 8192],
   [6, 4, 0, 1008, 992, 960, 896, 768, 512, 0, 2048, 0, 8192], [], [], [], [], [], [], [], [], [], [], [], [],
   [0, 0, 0, 0, 32, 0, 128, 0, 0, 0, 2048, 0, 8192], [0, 0, 0, 16384, 16384, 16384, 16384, 16384, 16384, 16384, 8192],
   [0, 0, 0, 16384, 16384, 16384, 16384, 16384, 16384, 16384, 8192], [0, 0, 0, 16384, 16384, 16384, 16384, 16384, 16384, 16384],
   [0, 0, 0, 0, 0, 0, 0, 0, 0, 16384], [], [6, 4, 0, 1008, 992, 960, 896, 768, 512, 0, 2048, 0, 8192],
   [0, 0, 0, 16384, 16384, 16384, 16384, 16384, 16384, 16384, 8192], [0, 0, 0, 16384, 16384, 16384, 16384, 16384, 16384, 16384, 8192],
   [0, 0, 0, 16384, 16384, 16384, 16384, 16384, 16384, 16384, 8192], [0, 0, 0, 0, 0, 0, 0, 0, 0, 0, 8192],
   [6, 4, 0, 1008, 992, 960, 896, 768, 512, 0, 2048, 0, 8192], [6, 4, 0, 1008, 992, 960, 896, 768, 512, 0, 2048, 0, 8192], [],
   [2, 4, 16, 16, 32, 64, 128, 256, 512, 1024, 2048, 4096, 8192, 16384], [], [], [], [], [6, 4, 0, 1008, 992, 960, 896, 768, 512, 0, 2048, 0, 8192], [],
   [], [], [], [], [], [], [0, 0, 0, 0, 32, 0, 128, 0, 0, 0, 2048, 0, 8192], [], [], [0, 0, 0, 0, 0, 0, 0, 0, 0, 0, 0, 8192],
   [0, 0, 0, 16384, 16384, 16384, 16384, 16384, 16384, 16384, 8192], [0, 0, 0, 16384, 16384, 16384, 16384, 16384, 16384, 16384, 8192], [],
   [6, 4, 0, 1008, 992, 960, 896, 768, 512, 0, 2048, 0, 8192], [6, 4, 0, 1008, 992, 960, 896, 768, 512, 0, 2048, 0, 8192], [0, 0, 16], [],
   [0, 0, 0, 0, 32, 0, 128, 0, 0, 0, 2048, 0, 8192], [0, 0, 0, 0, 32, 0, 128, 0, 0, 0, 2048, 0, 8192], [0, 0, 0, 0, 32, 0, 128, 0, 0, 0, 2048, 0, 8192],
   [2, 0, 8, 0, 32, 0, 128, 0, 32256, 31744, 30720, 28672, 24576, 16384]]
  (by decide +kernel)

theorem new4 : ¬ Derivable rfc Name.«address-list» c!"a@b <c@d>" := not_derivable_of_refutes
  [[2, 0, 8, 0, 0, 64, 0, 256], [], [], [], [], [], [], [0, 0, 0, 16], [2, 4, 8, 0, 32, 64, 128, 256, 512], [0, 0, 0, 16], [], [0, 0, 0, 16],
   [2, 4, 8, 0, 32, 64, 128, 256, 512], [2, 4, 8, 0, 32, 64, 128, 256, 512], [], [0, 0, 0, 16], [2, 0, 8, 0, 0, 64, 0, 256],
   [2, 0, 24, 0, 0, 64, 0, 256], [2, 0, 8, 0, 0, 64, 0, 256], [2, 0, 24, 0, 0, 64, 0, 256], [2, 4, 8, 0, 32, 64, 128, 256, 512],
   [2, 4, 8, 0, 32, 64, 128, 256, 512], [], [2, 0, 24, 0, 0, 64, 0, 256], [2, 0, 24, 0, 0, 64, 0, 256], [], [], [], [], [], [], [], [], [], [], [], [],
   [2, 0, 8, 0, 0, 64, 0, 256], [24, 0, 512, 512, 512, 256], [24, 0, 512, 512, 512, 256], [0, 0, 512, 512, 512], [0, 0, 0, 512, 512], [],
   [2, 0, 24, 0, 0, 64, 0, 256], [24, 0, 512, 512, 512, 256], [24, 0, 512, 512, 512, 256], [24, 0, 512, 528, 512, 256], [24, 0, 0, 0, 0, 256],
   [2, 0, 24, 0, 0, 64, 0, 256], [2, 0, 24, 0, 0, 64, 0, 256], [], [2, 4, 8, 0, 32, 64, 128, 256, 512], [], [], [], [], [2, 0, 24, 0, 0, 64, 0, 256],
   [0, 0, 0, 16], [], [], [], [], [], [], [2, 0, 8, 0, 0, 64, 0, 256], [], [], [0, 24, 0, 0, 0, 0, 256], [24, 0, 512, 512, 512, 256],
   [24, 0, 512, 512, 512, 256], [], [2, 0, 24, 0, 0, 64, 0, 256], [2, 0, 24, 0, 0, 64, 0, 256], [], [], [2, 0, 8, 0, 0, 64, 0, 256],
   [2, 0, 8, 0, 0, 64, 0, 256], [2, 0, 8, 0, 0, 64, 0, 256], [14, 12, 8, 0, 992, 960, 896, 768, 512]]
  (by decide +kernel)

theorem new5 : ¬ Derivable rfc Name.«address-list» c!"<>" := not_derivable_of_refutes
  [[], [], [], [], [], [], [], [], [2, 4], [], [], [], [2, 4], [2, 4], [], [], [], [], [], [], [2, 4], [2, 4], [], [], [], [], [], [], [], [], [], [],
   [], [], [], [], [], [], [], [], [], [], [], [], [], [], [], [], [], [], [], [2, 4], [], [], [], [], [], [], [], [], [], [], [], [], [], [], [], [],
   [], [], [], [], [], [], [], [], [], [], [6, 4]]
  (by decide +kernel)

theorem new6 : ¬ Derivable rfc Name.«address-list» c!"g:" := not_derivable_of_refutes
  [[2], [], [], [], [], [], [], [], [2, 4], [], [], [], [2, 4], [2, 4], [], [], [2], [2], [2], [2], [2, 4], [2, 4], [], [2], [2], [], [], [], [], [],
   [], [], [], [], [], [], [], [2], [], [], [], [], [], [2], [], [], [], [], [2], [2], [], [2, 4], [], [], [], [], [2], [], [], [], [], [], [], [], [2],
   [], [], [], [], [], [], [2], [2], [], [], [2], [2], [2], [6, 4]]
  (by decide +kernel)

theorem new7 : ¬ Derivable rfc Name.«address-list» c!"\"g:a@b\";" := not_derivable_of_refutes
  [[0, 4, 0, 16, 0, 64], [], [], [], [2, 0, 0, 0, 0, 0, 128], [], [], [], [2, 4, 8, 16, 32, 64, 128, 256], [], [], [], [2, 4, 8, 16, 32, 64, 128, 256],
   [2, 4, 8, 16, 32, 64, 128, 256], [], [], [0, 4, 0, 16, 0, 64], [0, 4, 0, 16, 0, 64], [0, 4, 0, 16, 0, 64], [0, 4, 0, 16, 0, 64],
   [0, 4, 8, 16, 32, 64, 0, 256], [0, 4, 8, 16, 32, 64, 0, 256], [128], [128, 4, 0, 16, 0, 64], [128, 4, 0, 16, 0, 64], [], [], [], [], [], [], [], [],
   [], [], [], [], [0, 4, 0, 16, 0, 64], [0, 0, 0, 64], [0, 0, 0, 64], [], [], [], [128, 4, 0, 16, 0, 64], [0, 0, 0, 64], [0, 0, 0, 64], [0, 0, 0, 64],
   [0, 0, 0, 64], [128, 4, 0, 16, 0, 64], [0, 4, 0, 16, 0, 64], [], [2, 4, 8, 16, 32, 64, 128, 256], [], [], [], [], [128, 4, 0, 16, 0, 64], [], [], [],
   [], [], [], [], [0, 4, 0, 16, 0, 64], [], [], [0, 0, 0, 0, 64], [0, 0, 0, 64], [0, 0, 0, 64], [], [128, 4, 0, 16, 0, 64], [0, 4, 0, 16, 0, 64], [],
   [], [0, 4, 0, 16, 0, 64], [0, 4, 0, 16, 0, 64], [0, 4, 0, 16, 0, 64], [510, 508, 504, 496, 480, 448, 384, 256]]
  (by decide +kernel)

theorem new8 : ¬ Derivable rfc Name.«address-list» c!"a@b;c@d" := not_derivable_of_refutes
  [[2, 0, 8, 0, 32, 0, 128], [], [], [], [], [], [], [], [2, 4, 8, 16, 32, 64, 128], [], [], [], [2, 4, 8, 16, 32, 64, 128], [2, 4, 8, 16, 32, 64, 128],
   [], [], [2, 0, 8, 0, 32, 0, 128], [2, 0, 8, 0, 32, 0, 128], [2, 0, 8, 0, 32, 0, 128], [2, 0, 8, 0, 32, 0, 128], [2, 4, 8, 16, 32, 64, 128],
   [2, 4, 8, 16, 32, 64, 128], [], [2, 0, 8, 0, 32, 0, 128], [2, 0, 8, 0, 32, 0, 128], [], [], [], [], [], [], [], [], [], [], [], [],
   [2, 0, 8, 0, 32, 0, 128], [8, 0, 0, 0, 128], [8, 0, 0, 0, 128], [], [], [], [2, 0, 8, 0, 32, 0, 128], [8, 0, 0, 0, 128], [8, 0, 0, 0, 128],
   [8, 0, 0, 0, 128], [8, 0, 0, 0, 128], [2, 0, 8, 0, 32, 0, 128], [2, 0, 8, 0, 32, 0, 128], [], [2, 4, 8, 16, 32, 64, 128], [], [], [], [],
   [2, 0, 8, 0, 32, 0, 128], [], [], [], [], [], [], [], [2, 0, 8, 0, 32, 0, 128], [], [], [0, 8, 0, 0, 0, 128], [8, 0, 0, 0, 128], [8, 0, 0, 0, 128],
   [], [2, 0, 8, 0, 32, 0, 128], [2, 0, 8, 0, 32, 0, 128], [], [], [2, 0, 8, 0, 32, 0, 128], [2, 0, 8, 0, 32, 0, 128], [2, 0, 8, 0, 32, 0, 128],
   [254, 252, 248, 240, 224, 192, 128]]
  (by decide +kernel)

theorem new9 : ¬ Derivable rfc Name.«address-list» c!"a@b:25" := not_derivable_of_refutes
  [[2, 0, 8], [], [], [0, 0, 0, 0, 32, 64], [], [], [], [], [2, 4, 8, 16, 32, 64], [], [], [], [2, 4, 8, 16, 32, 64], [2, 4, 8, 16, 32, 64], [], [],
   [2, 0, 8, 0, 32, 64], [2, 0, 8, 0, 96, 64], [2, 0, 8, 0, 96, 64], [2, 0, 8, 0, 96, 64], [2, 4, 8, 16, 32, 64], [2, 4, 8, 16, 32, 64], [],
   [2, 0, 8, 0, 96, 64], [2, 0, 8, 0, 96, 64], [], [], [], [], [0, 0, 0, 0, 96, 64], [], [0, 0, 0, 0, 64], [], [], [0, 0, 0, 0, 64], [0, 0, 0, 0, 64],
   [0, 0, 0, 0, 64], [2, 0, 8], [8], [8], [], [], [], [2, 0, 8, 0, 96, 64], [8], [8], [8], [8], [2, 0, 8, 0, 96, 64], [2, 0, 8, 0, 96, 64], [],
   [2, 4, 8, 16, 32, 64], [], [], [], [], [2, 0, 8, 0, 96, 64], [], [], [0, 0, 0, 0, 96, 64], [0, 0, 0, 0, 64], [0, 0, 0, 0, 64], [0, 0, 0, 0, 64],
   [0, 0, 0, 0, 64], [2, 0, 8], [], [0, 16], [0, 8], [8], [8], [], [2, 0, 8, 0, 96, 64], [2, 0, 8, 0, 96, 64], [], [], [2, 0, 8, 0, 96, 64],
   [2, 0, 8, 0, 96, 64], [2, 0, 8, 0, 96, 64], [126, 124, 120, 112, 96, 64]]
  (by decide +kernel)

theorem new10 : ¬ Derivable rfc Name.«date-time» c!"1Jan001:00UT" := not_derivable_of_refutes
  [[0, 4, 8, 16, 0, 0, 0, 0, 0, 0, 2048, 4096], [], [], [2, 0, 0, 0, 32, 64, 128, 0, 512, 1024], [], [], [], [],
   [2, 4, 8, 16, 32, 64, 128, 256, 512, 1024, 2048, 4096], [], [], [], [2, 4, 8, 16, 32, 64, 128, 256, 512, 1024, 2048, 4096],
   [2, 4, 8, 16, 32, 64, 128, 256, 512, 1024, 2048, 4096], [], [], [2, 4, 8, 16, 32, 64, 128, 0, 512, 1024, 2048, 4096],
   [254, 252, 248, 240, 224, 192, 128, 0, 7680, 7168, 6144, 4096], [254, 252, 248, 240, 224, 192, 128, 0, 7680, 7168, 6144, 4096],
   [254, 252, 248, 240, 224, 192, 128, 0, 7680, 7168, 6144, 4096], [2, 4, 8, 16, 32, 64, 128, 256, 512, 1024, 2048, 4096],
   [2, 4, 8, 16, 32, 64, 128, 256, 512, 1024, 2048, 4096], [], [254, 252, 248, 240, 224, 192, 128, 0, 7680, 7168, 6144, 4096],
   [254, 252, 248, 240, 224, 192, 128, 0, 7680, 7168, 6144, 4096], [], [], [], [192], [2, 0, 0, 0, 96, 192, 128, 0, 1536, 1024], [0, 16],
   [0, 0, 0, 0, 192, 128, 0, 0, 1024], [0, 0, 0, 0, 0, 6144], [0, 0, 0, 0, 0, 1024], [0, 0, 0, 0, 64, 128, 0, 0, 1024],
   [0, 0, 0, 0, 64, 128, 0, 0, 1024], [0, 0, 0, 0, 64, 128, 0, 0, 1024], [0, 0, 8, 16, 0, 0, 0, 0, 0, 0, 6144, 4096], [], [], [], [], [],
   [254, 252, 248, 240, 224, 192, 128, 0, 7680, 7168, 6144, 4096], [], [], [], [], [254, 252, 248, 240, 224, 192, 128, 0, 7680, 7168, 6144, 4096],
   [254, 252, 248, 240, 224, 192, 128, 0, 7680, 7168, 6144, 4096], [], [2, 4, 8, 16, 32, 64, 128, 256, 512, 1024, 2048, 4096], [], [], [], [],
   [254, 252, 248, 240, 224, 192, 128, 0, 7680, 7168, 6144, 4096], [], [], [2, 0, 0, 0, 96, 192, 128, 0, 1536, 1024],
   [0, 0, 0, 0, 192, 128, 0, 0, 1024], [0, 0, 0, 0, 64, 128, 0, 0, 1024], [0, 0, 0, 0, 64, 128, 0, 0, 1024], [0, 0, 0, 0, 64, 128, 0, 0, 1024],
   [0, 0, 8, 16, 0, 0, 0, 0, 0, 0, 6144, 4096], [], [], [], [], [], [], [254, 252, 248, 240, 224, 192, 128, 0, 7680, 7168, 6144, 4096],
   [254, 252, 248, 240, 224, 192, 128, 0, 7680, 7168, 6144, 4096], [], [], [254, 252, 248, 240, 224, 192, 128, 0, 7680, 7168, 6144, 4096],
   [254, 252, 248, 240, 224, 192, 128, 0, 7680, 7168, 6144, 4096], [254, 252, 248, 240, 224, 192, 128, 0, 7680, 7168, 6144, 4096],
   [8190, 8188, 8184, 8176, 8160, 8128, 8064, 7936, 7680, 7168, 6144, 4096]]
  (by decide +kernel)

theorem new11 : ¬ Derivable rfc Name.«date-time» c!"1Jan0001:00" := not_derivable_of_refutes
  [[0, 4, 8, 16], [], [], [2, 0, 0, 0, 32, 64, 128, 256, 0, 1024, 2048], [], [], [], [], [2, 4, 8, 16, 32, 64, 128, 256, 512, 1024, 2048], [], [], [],
   [2, 4, 8, 16, 32, 64, 128, 256, 512, 1024, 2048], [2, 4, 8, 16, 32, 64, 128, 256, 512, 1024, 2048], [], [],
   [2, 4, 8, 16, 32, 64, 128, 256, 0, 1024, 2048], [510, 508, 504, 496, 480, 448, 384, 256, 0, 3072, 2048],
   [510, 508, 504, 496, 480, 448, 384, 256, 0, 3072, 2048], [510, 508, 504, 496, 480, 448, 384, 256, 0, 3072, 2048],
   [2, 4, 8, 16, 32, 64, 128, 256, 512, 1024, 2048], [2, 4, 8, 16, 32, 64, 128, 256, 512, 1024, 2048], [],
   [510, 508, 504, 496, 480, 448, 384, 256, 0, 3072, 2048], [510, 508, 504, 496, 480, 448, 384, 256, 0, 3072, 2048], [], [], [], [448],
   [2, 0, 0, 0, 96, 192, 384, 256, 0, 3072, 2048], [0, 16], [0, 0, 0, 0, 448, 384, 256, 0, 0, 2048], [], [0, 0, 0, 0, 0, 0, 2048],
   [0, 0, 0, 0, 64, 128, 256, 0, 0, 2048], [0, 0, 0, 0, 64, 128, 256, 0, 0, 2048], [0, 0, 0, 0, 64, 128, 256, 0, 0, 2048], [0, 0, 8, 16], [], [], [],
   [], [], [510, 508, 504, 496, 480, 448, 384, 256, 0, 3072, 2048], [], [], [], [], [510, 508, 504, 496, 480, 448, 384, 256, 0, 3072, 2048],
   [510, 508, 504, 496, 480, 448, 384, 256, 0, 3072, 2048], [], [2, 4, 8, 16, 32, 64, 128, 256, 512, 1024, 2048], [], [], [], [],
   [510, 508, 504, 496, 480, 448, 384, 256, 0, 3072, 2048], [], [], [2, 0, 0, 0, 96, 192, 384, 256, 0, 3072, 2048],
   [0, 0, 0, 0, 448, 384, 256, 0, 0, 2048], [0, 0, 0, 0, 64, 128, 256, 0, 0, 2048], [0, 0, 0, 0, 64, 128, 256, 0, 0, 2048],
   [0, 0, 0, 0, 64, 128, 256, 0, 0, 2048], [0, 0, 8, 16], [], [], [], [], [], [], [510, 508, 504, 496, 480, 448, 384, 256, 0, 3072, 2048],
   [510, 508, 504, 496, 480, 448, 384, 256, 0, 3072, 2048], [], [], [510, 508, 504, 496, 480, 448, 384, 256, 0, 3072, 2048],
   [510, 508, 504, 496, 480, 448, 384, 256, 0, 3072, 2048], [510, 508, 504, 496, 480, 448, 384, 256, 0, 3072, 2048],
   [4094, 4092, 4088, 4080, 4064, 4032, 3968, 3840, 3584, 3072, 2048]]
  (by decide +kernel)

theorem new12 : ¬ Derivable rfc Name.«date-time» c!"1Jan0001:00 0000" := not_derivable_of_refutes
  [[0, 4, 8, 16], [], [], [2, 0, 0, 0, 32, 64, 128, 256, 0, 1024, 2048, 0, 8192, 16384, 32768, 65536], [], [], [],
   [0, 0, 0, 0, 0, 0, 0, 0, 0, 0, 0, 4096], [2, 4, 8, 16, 32, 64, 128, 256, 512, 1024, 2048, 0, 8192, 16384, 32768, 65536],
   [0, 0, 0, 0, 0, 0, 0, 0, 0, 0, 0, 4096], [], [0, 0, 0, 0, 0, 0, 0, 0, 0, 0, 0, 4096],
   [2, 4, 8, 16, 32, 64, 128, 256, 512, 1024, 2048, 0, 8192, 16384, 32768, 65536],
   [2, 4, 8, 16, 32, 64, 128, 256, 512, 1024, 2048, 0, 8192, 16384, 32768, 65536], [], [0, 0, 0, 0, 0, 0, 0, 0, 0, 0, 0, 4096],
   [2, 4, 8, 16, 32, 64, 128, 256, 0, 1024, 2048, 0, 8192, 16384, 32768, 65536],
   [510, 508, 504, 496, 480, 448, 384, 256, 0, 7168, 6144, 122880, 122880, 114688, 98304, 65536],
   [510, 508, 504, 496, 480, 448, 384, 256, 0, 3072, 2048, 0, 122880, 114688, 98304, 65536],
   [510, 508, 504, 496, 480, 448, 384, 256, 0, 7168, 6144, 122880, 122880, 114688, 98304, 65536],
   [2, 4, 8, 16, 32, 64, 128, 256, 512, 1024, 2048, 0, 8192, 16384, 32768, 65536],
   [2, 4, 8, 16, 32, 64, 128, 256, 512, 1024, 2048, 0, 8192, 16384, 32768, 65536], [],
   [510, 508, 504, 496, 480, 448, 384, 256, 0, 7168, 6144, 122880, 122880, 114688, 98304, 65536],
   [510, 508, 504, 496, 480, 448, 384, 256, 0, 130048, 129024, 122880, 122880, 114688, 98304, 65536], [], [], [], [448],
   [2, 0, 0, 0, 96, 192, 384, 256, 0, 7168, 6144, 24576, 24576, 49152, 98304, 65536], [0, 16],
   [0, 0, 0, 0, 448, 384, 256, 0, 0, 6144, 0, 114688, 114688, 98304, 65536], [], [0, 0, 0, 0, 0, 0, 6144],
   [0, 0, 0, 0, 64, 128, 256, 0, 0, 6144, 0, 16384, 16384, 32768, 65536], [0, 0, 0, 0, 64, 128, 256, 0, 0, 6144, 0, 16384, 16384, 32768, 65536],
   [0, 0, 0, 0, 64, 128, 256, 0, 0, 6144, 0, 16384, 16384, 32768, 65536], [0, 0, 8, 16], [], [], [], [], [],
   [510, 508, 504, 496, 480, 448, 384, 256, 0, 130048, 129024, 122880, 122880, 114688, 98304, 65536], [], [], [0, 0, 0, 0, 0, 0, 0, 0, 0, 0, 0, 4096],
   [], [510, 508, 504, 496, 480, 448, 384, 256, 0, 7168, 6144, 122880, 122880, 114688, 98304, 65536],
   [510, 508, 504, 496, 480, 448, 384, 256, 0, 7168, 6144, 122880, 122880, 114688, 98304, 65536], [],
   [2, 4, 8, 16, 32, 64, 128, 256, 512, 1024, 2048, 0, 8192, 16384, 32768, 65536], [], [], [], [],
   [510, 508, 504, 496, 480, 448, 384, 256, 0, 130048, 129024, 122880, 122880, 114688, 98304, 65536], [0, 0, 0, 0, 0, 0, 0, 0, 0, 0, 0, 4096], [],
   [2, 0, 0, 0, 96, 192, 384, 256, 0, 7168, 6144, 24576, 24576, 49152, 98304, 65536],
   [0, 0, 0, 0, 448, 384, 256, 0, 0, 6144, 0, 114688, 114688, 98304, 65536], [0, 0, 0, 0, 64, 128, 256, 0, 0, 6144, 0, 16384, 16384, 32768, 65536],
   [0, 0, 0, 0, 64, 128, 256, 0, 0, 6144, 0, 16384, 16384, 32768, 65536], [0, 0, 0, 0, 64, 128, 256, 0, 0, 6144, 0, 16384, 16384, 32768, 65536],
   [0, 0, 8, 16], [], [], [], [], [], [], [510, 508, 504, 496, 480, 448, 384, 256, 0, 7168, 6144, 122880, 122880, 114688, 98304, 65536],
   [510, 508, 504, 496, 480, 448, 384, 256, 0, 7168, 6144, 122880, 122880, 114688, 98304, 65536], [], [],
   [510, 508, 504, 496, 480, 448, 384, 256, 0, 3072, 2048, 0, 122880, 114688, 98304, 65536],
   [510, 508, 504, 496, 480, 448, 384, 256, 0, 3072, 2048, 0, 122880, 114688, 98304, 65536],
   [510, 508, 504, 496, 480, 448, 384, 256, 0, 3072, 2048, 0, 122880, 114688, 98304, 65536],
   [4094, 4092, 4088, 4080, 4064, 4032, 3968, 3840, 3584, 3072, 2048, 0, 122880, 114688, 98304, 65536]]
  (by decide +kernel)

theorem new13 : ¬ Derivable rfc Name.«date-time» c!"1Jan0001:00UTC" := not_derivable_of_refutes
  [[0, 4, 8, 16, 0, 0, 0, 0, 0, 0, 0, 4096, 8192, 16384], [], [], [2, 0, 0, 0, 32, 64, 128, 256, 0, 1024, 2048], [], [], [], [],
   [2, 4, 8, 16, 32, 64, 128, 256, 512, 1024, 2048, 4096, 8192, 16384], [], [], [], [2, 4, 8, 16, 32, 64, 128, 256, 512, 1024, 2048, 4096, 8192, 16384],
   [2, 4, 8, 16, 32, 64, 128, 256, 512, 1024, 2048, 4096, 8192, 16384], [], [], [2, 4, 8, 16, 32, 64, 128, 256, 0, 1024, 2048, 4096, 8192, 16384],
   [510, 508, 504, 496, 480, 448, 384, 256, 0, 31744, 30720, 28672, 24576, 16384],
   [510, 508, 504, 496, 480, 448, 384, 256, 0, 31744, 30720, 28672, 24576, 16384],
   [510, 508, 504, 496, 480, 448, 384, 256, 0, 31744, 30720, 28672, 24576, 16384], [2, 4, 8, 16, 32, 64, 128, 256, 512, 1024, 2048, 4096, 8192, 16384],
   [2, 4, 8, 16, 32, 64, 128, 256, 512, 1024, 2048, 4096, 8192, 16384], [],
   [510, 508, 504, 496, 480, 448, 384, 256, 0, 31744, 30720, 28672, 24576, 16384],
   [510, 508, 504, 496, 480, 448, 384, 256, 0, 31744, 30720, 28672, 24576, 16384], [12288], [], [], [448],
   [2, 0, 0, 0, 96, 192, 384, 256, 0, 3072, 2048], [0, 16], [0, 0, 0, 0, 448, 384, 256, 0, 0, 2048], [0, 0, 0, 0, 0, 0, 12288],
   [0, 0, 0, 0, 0, 0, 2048], [0, 0, 0, 0, 64, 128, 256, 0, 0, 2048], [0, 0, 0, 0, 64, 128, 256, 0, 0, 2048], [0, 0, 0, 0, 64, 128, 256, 0, 0, 2048],
   [0, 0, 8, 16, 0, 0, 0, 0, 0, 0, 0, 12288, 8192, 16384], [], [], [], [], [],
   [510, 508, 504, 496, 480, 448, 384, 256, 0, 31744, 30720, 28672, 24576, 16384], [], [], [], [],
   [510, 508, 504, 496, 480, 448, 384, 256, 0, 31744, 30720, 28672, 24576, 16384],
   [510, 508, 504, 496, 480, 448, 384, 256, 0, 31744, 30720, 28672, 24576, 16384], [],
   [2, 4, 8, 16, 32, 64, 128, 256, 512, 1024, 2048, 4096, 8192, 16384], [], [], [], [],
   [510, 508, 504, 496, 480, 448, 384, 256, 0, 31744, 30720, 28672, 24576, 16384], [], [], [2, 0, 0, 0, 96, 192, 384, 256, 0, 3072, 2048],
   [0, 0, 0, 0, 448, 384, 256, 0, 0, 2048], [0, 0, 0, 0, 64, 128, 256, 0, 0, 2048], [0, 0, 0, 0, 64, 128, 256, 0, 0, 2048],
   [0, 0, 0, 0, 64, 128, 256, 0, 0, 2048], [0, 0, 8, 16, 0, 0, 0, 0, 0, 0, 0, 12288, 8192, 16384], [], [], [], [], [], [],
   [510, 508, 504, 496, 480, 448, 384, 256, 0, 31744, 30720, 28672, 24576, 16384],
   [510, 508, 504, 496, 480, 448, 384, 256, 0, 31744, 30720, 28672, 24576, 16384], [], [],
   [510, 508, 504, 496, 480, 448, 384, 256, 0, 31744, 30720, 28672, 24576, 16384],
   [510, 508, 504, 496, 480, 448, 384, 256, 0, 31744, 30720, 28672, 24576, 16384],
   [510, 508, 504, 496, 480, 448, 384, 256, 0, 31744, 30720, 28672, 24576, 16384],
   [32766, 32764, 32760, 32752, 32736, 32704, 32640, 32512, 32256, 31744, 30720, 28672, 24576, 16384]]
  (by decide +kernel)

theorem rejected0 : ¬ Derivable accepted Name.«address-list» c!"<> \r\n \r\n " := not_derivable_of_refutes
  [[], [0, 0, 0, 16, 0, 0, 128], [0, 0, 0, 32, 0, 0, 256], [], [], [], [0, 0, 0, 0, 32, 0, 0, 256], [0, 0, 8, 0, 0, 64, 0, 0, 512], [2, 4],
   [0, 0, 8, 0, 0, 64, 0, 0, 512], [], [0, 0, 72, 64, 0, 576, 512, 0, 512], [2, 4], [2, 4], [], [0, 0, 72, 64, 0, 576, 512, 0, 512], [], [], [], [],
   [2, 4], [2, 4], [], [], [], [], [], [], [], [], [], [], [], [], [], [], [], [], [76], [76], [76], [76], [], [], [76], [76],
   [76, 0, 72, 64, 0, 576, 512, 0, 512], [], [], [], [], [2, 4], [], [], [], [], [], [0, 0, 72, 0, 0, 576, 0, 0, 512], [], [], [], [], [], [], [], [],
   [], [], [76], [76], [], [], [], [], [], [], [], [], [6, 4]]
  (by decide +kernel)

theorem rejected1 : ¬ Derivable accepted Name.«address-list» c!"a@b .c" := not_derivable_of_refutes
  [[2, 0, 8, 0, 0, 64], [], [], [], [], [], [], [0, 0, 0, 16], [2, 4, 8, 0, 32, 64], [0, 0, 0, 16], [], [0, 0, 0, 16], [2, 4, 8, 0, 32, 64],
   [2, 4, 8, 0, 32, 64], [], [0, 0, 0, 16], [2, 0, 8, 0, 0, 64], [2, 0, 24, 0, 0, 64], [2, 0, 8, 0, 0, 64], [2, 0, 24, 0, 0, 64], [2, 4, 8, 0, 32, 64],
   [2, 4, 8, 0, 32, 64], [], [2, 0, 24, 0, 0, 64], [126, 0, 120, 0, 0, 64], [], [], [], [], [], [], [], [], [], [], [], [], [], [24], [24], [], [], [],
   [126, 0, 120, 0, 0, 64], [24], [24], [24, 0, 0, 16], [24], [2, 0, 88, 0, 0, 64], [2, 0, 24, 0, 0, 64], [], [2, 4, 8, 0, 32, 64], [], [], [], [],
   [126, 0, 120, 0, 0, 64], [0, 0, 0, 16], [], [], [], [], [], [], [], [], [], [0, 24], [24], [24], [], [2, 0, 88, 0, 0, 64], [], [], [],
   [2, 0, 8, 0, 0, 64], [2, 0, 8, 0, 0, 64], [2, 0, 8, 0, 0, 64], [14, 12, 8, 0, 96, 64]]
  (by decide +kernel)

theorem rejected2 : ¬ Derivable accepted Name.«address-list» c!"a@[\\]]" := not_derivable_of_refutes
  [[2], [], [], [], [], [], [], [], [2, 4, 8, 16, 32, 64], [], [0, 0, 0, 32], [], [2, 4, 8, 0, 32, 64], [2, 4, 8, 32, 32, 64], [], [], [2], [2], [2],
   [2], [2, 4, 8, 0, 32, 64], [2, 4, 8, 32, 32, 64], [], [2], [6], [], [], [], [], [], [], [], [], [], [], [], [], [], [], [], [], [], [], [6], [], [],
   [], [], [2], [2], [], [2, 4], [], [], [], [], [6], [], [], [], [], [], [], [], [], [], [], [], [], [], [], [2], [], [], [], [2, 0, 0, 16],
   [2, 0, 0, 16], [2, 0, 0, 16], [126, 124, 120, 112, 96, 64]]
  (by decide +kernel)

theorem rejected3 : ¬ Derivable accepted Name.«date-time» c!"1Jan 10000 01:00UT" := not_derivable_of_refutes
  [[0, 4, 8, 16, 0, 0, 0, 0, 0, 0, 0, 0, 0, 0, 0, 0, 131072, 262144], [], [], [2, 0, 0, 0, 0, 64, 128, 256, 512, 1024, 0, 4096, 8192, 0, 32768, 65536],
   [], [], [], [0, 0, 0, 0, 32, 0, 0, 0, 0, 0, 2048], [2, 4, 8, 16, 0, 64, 128, 256, 512, 1024, 0, 4096, 8192, 16384, 32768, 65536, 131072, 262144],
   [0, 0, 0, 0, 32, 0, 0, 0, 0, 0, 2048], [], [0, 0, 0, 0, 32, 0, 0, 0, 0, 0, 2048],
   [2, 4, 8, 16, 0, 64, 128, 256, 512, 1024, 0, 4096, 8192, 16384, 32768, 65536, 131072, 262144],
   [2, 4, 8, 16, 0, 64, 128, 256, 512, 1024, 0, 4096, 8192, 16384, 32768, 65536, 131072, 262144], [], [0, 0, 0, 0, 32, 0, 0, 0, 0, 0, 2048],
   [2, 4, 8, 16, 0, 64, 128, 256, 512, 1024, 0, 4096, 8192, 0, 32768, 65536, 131072, 262144],
   [62, 60, 56, 48, 4032, 4032, 3968, 3840, 3584, 3072, 12288, 12288, 8192, 0, 491520, 458752, 393216, 262144],
   [30, 28, 24, 16, 0, 1984, 1920, 1792, 1536, 1024, 0, 12288, 8192, 0, 491520, 458752, 393216, 262144],
   [62, 60, 56, 48, 4032, 4032, 3968, 3840, 3584, 3072, 12288, 12288, 8192, 0, 491520, 458752, 393216, 262144],
   [2, 4, 8, 16, 0, 64, 128, 256, 512, 1024, 0, 4096, 8192, 16384, 32768, 65536, 131072, 262144],
   [2, 4, 8, 16, 0, 64, 128, 256, 512, 1024, 0, 4096, 8192, 16384, 32768, 65536, 131072, 262144], [],
   [62, 60, 56, 48, 4032, 4032, 3968, 3840, 3584, 3072, 12288, 12288, 8192, 0, 491520, 458752, 393216, 262144],
   [16382, 16380, 16376, 16368, 16320, 16320, 16256, 16128, 15872, 15360, 12288, 12288, 8192, 0, 491520, 458752, 393216, 262144], [], [], [], [128],
   [2, 0, 0, 0, 192, 192, 384, 768, 3584, 3072, 12288, 12288, 8192, 0, 98304, 65536], [0, 16],
   [0, 0, 0, 0, 128, 128, 256, 512, 3072, 0, 8192, 8192, 0, 0, 65536], [0, 0, 0, 0, 0, 0, 0, 0, 0, 0, 327680, 327680, 327680],
   [0, 0, 0, 0, 0, 0, 0, 0, 0, 0, 65536, 65536, 65536], [2, 0, 0, 0, 192, 192, 384, 768, 3584, 3072, 12288, 12288, 8192, 0, 98304, 65536],
   [0, 0, 0, 0, 128, 128, 256, 512, 3072, 0, 8192, 8192, 0, 0, 65536], [0, 0, 0, 0, 128, 128, 256, 512, 3072, 0, 8192, 8192, 0, 0, 65536],
   [0, 0, 0, 0, 512, 0, 0, 0, 0, 0, 0, 0, 0, 0, 0, 0, 262144],
   [16384, 16384, 16384, 16384, 16384, 16384, 16384, 16384, 16384, 16384, 16384, 16384, 16384], [], [], [],
   [16384, 16384, 16384, 16384, 16384, 16384, 16384, 16384, 16384, 16384, 16384, 16384, 16384],
   [16382, 16380, 16376, 16368, 16320, 16320, 16256, 16128, 15872, 15360, 12288, 12288, 8192, 0, 491520, 458752, 393216, 262144], [],
   [16384, 16384, 16384, 16384, 16384, 16384, 16384, 16384, 16384, 16384, 16384, 16384, 16384], [0, 0, 0, 0, 32, 0, 0, 0, 0, 0, 2048], [],
   [62, 60, 56, 48, 4032, 4032, 3968, 3840, 3584, 3072, 12288, 12288, 8192, 0, 491520, 458752, 393216, 262144],
   [62, 60, 56, 48, 4032, 4032, 3968, 3840, 3584, 3072, 12288, 12288, 8192, 0, 491520, 458752, 393216, 262144], [],
   [2, 4, 8, 16, 0, 64, 128, 256, 512, 1024, 0, 4096, 8192, 16384, 32768, 65536, 131072, 262144], [], [], [], [],
   [16382, 16380, 16376, 16368, 16320, 16320, 16256, 16128, 15872, 15360, 12288, 12288, 8192, 0, 491520, 458752, 393216, 262144],
   [0, 0, 0, 0, 32, 0, 0, 0, 0, 0, 2048], [], [2, 0, 0, 0, 192, 192, 384, 768, 3584, 3072, 12288, 12288, 8192, 0, 98304, 65536],
   [0, 0, 0, 0, 128, 128, 256, 512, 3072, 0, 8192, 8192, 0, 0, 65536],
   [2, 0, 0, 0, 192, 192, 384, 768, 3584, 3072, 12288, 12288, 8192, 0, 98304, 65536],
   [0, 0, 0, 0, 128, 128, 256, 512, 3072, 0, 8192, 8192, 0, 0, 65536], [0, 0, 0, 0, 128, 128, 256, 512, 3072, 0, 8192, 8192, 0, 0, 65536],
   [0, 0, 0, 0, 0, 0, 0, 0, 0, 0, 0, 0, 0, 0, 0, 0, 262144], [], [], [], [],
   [16384, 16384, 16384, 16384, 16384, 16384, 16384, 16384, 16384, 16384, 16384, 16384, 16384], [],
   [62, 60, 56, 48, 4032, 4032, 3968, 3840, 3584, 3072, 12288, 12288, 8192, 0, 491520, 458752, 393216, 262144], [], [], [],
   [30, 28, 24, 16, 0, 1984, 1920, 1792, 1536, 1024, 0, 12288, 8192, 0, 491520, 458752, 393216, 262144],
   [30, 28, 24, 16, 0, 1984, 1920, 1792, 1536, 1024, 0, 12288, 8192, 0, 491520, 458752, 393216, 262144],
   [30, 28, 24, 16, 0, 1984, 1920, 1792, 1536, 1024, 0, 12288, 8192, 0, 491520, 458752, 393216, 262144],
   [30, 28, 24, 16, 0, 1984, 1920, 1792, 1536, 1024, 0, 520192, 516096, 507904, 491520, 458752, 393216, 262144]]
  (by decide +kernel)

theorem rejected4 : ¬ Derivable accepted Name.«date-time» c!"1Jan00001:00UT" := not_derivable_of_refutes
  [[0, 4, 8, 16, 0, 0, 0, 0, 0, 0, 0, 0, 8192, 16384], [], [], [2, 0, 0, 0, 32, 64, 128, 256, 512, 0, 2048, 4096], [], [], [], [],
   [2, 4, 8, 16, 32, 64, 128, 256, 512, 1024, 2048, 4096, 8192, 16384], [], [], [], [2, 4, 8, 16, 32, 64, 128, 256, 512, 1024, 2048, 4096, 8192, 16384],
   [2, 4, 8, 16, 32, 64, 128, 256, 512, 1024, 2048, 4096, 8192, 16384], [], [], [2, 4, 8, 16, 32, 64, 128, 256, 512, 0, 2048, 4096, 8192, 16384],
   [1022, 1020, 1016, 1008, 992, 960, 896, 768, 512, 0, 30720, 28672, 24576, 16384],
   [1022, 1020, 1016, 1008, 992, 960, 896, 768, 512, 0, 30720, 28672, 24576, 16384],
   [1022, 1020, 1016, 1008, 992, 960, 896, 768, 512, 0, 30720, 28672, 24576, 16384],
   [2, 4, 8, 16, 32, 64, 128, 256, 512, 1024, 2048, 4096, 8192, 16384], [2, 4, 8, 16, 32, 64, 128, 256, 512, 1024, 2048, 4096, 8192, 16384], [],
   [1022, 1020, 1016, 1008, 992, 960, 896, 768, 512, 0, 30720, 28672, 24576, 16384],
   [1022, 1020, 1016, 1008, 992, 960, 896, 768, 512, 0, 30720, 28672, 24576, 16384], [], [], [], [64],
   [2, 0, 0, 0, 96, 192, 384, 768, 512, 0, 6144, 4096], [0, 16], [0, 0, 0, 0, 64, 128, 256, 512, 0, 0, 4096], [0, 0, 0, 0, 0, 0, 0, 20480, 20480],
   [0, 0, 0, 0, 0, 0, 0, 4096, 4096], [2, 0, 0, 0, 96, 192, 384, 768, 512, 0, 6144, 4096], [0, 0, 0, 0, 64, 128, 256, 512, 0, 0, 4096],
   [0, 0, 0, 0, 64, 128, 256, 512, 0, 0, 4096], [0, 0, 0, 0, 0, 0, 0, 0, 0, 0, 0, 0, 16384], [1024, 1024, 1024, 1024, 1024, 1024, 1024, 1024, 1024], [],
   [], [], [1024, 1024, 1024, 1024, 1024, 1024, 1024, 1024, 1024], [1022, 1020, 1016, 1008, 992, 960, 896, 768, 512, 0, 30720, 28672, 24576, 16384], [],
   [1024, 1024, 1024, 1024, 1024, 1024, 1024, 1024, 1024], [], [], [1022, 1020, 1016, 1008, 992, 960, 896, 768, 512, 0, 30720, 28672, 24576, 16384],
   [1022, 1020, 1016, 1008, 992, 960, 896, 768, 512, 0, 30720, 28672, 24576, 16384], [],
   [2, 4, 8, 16, 32, 64, 128, 256, 512, 1024, 2048, 4096, 8192, 16384], [], [], [], [],
   [1022, 1020, 1016, 1008, 992, 960, 896, 768, 512, 0, 30720, 28672, 24576, 16384], [], [], [2, 0, 0, 0, 96, 192, 384, 768, 512, 0, 6144, 4096],
   [0, 0, 0, 0, 64, 128, 256, 512, 0, 0, 4096], [2, 0, 0, 0, 96, 192, 384, 768, 512, 0, 6144, 4096], [0, 0, 0, 0, 64, 128, 256, 512, 0, 0, 4096],
   [0, 0, 0, 0, 64, 128, 256, 512, 0, 0, 4096], [0, 0, 0, 0, 0, 0, 0, 0, 0, 0, 0, 0, 16384], [], [], [], [],
   [1024, 1024, 1024, 1024, 1024, 1024, 1024, 1024, 1024], [], [1022, 1020, 1016, 1008, 992, 960, 896, 768, 512, 0, 30720, 28672, 24576, 16384], [], [],
   [], [1022, 1020, 1016, 1008, 992, 960, 896, 768, 512, 0, 30720, 28672, 24576, 16384],
   [1022, 1020, 1016, 1008, 992, 960, 896, 768, 512, 0, 30720, 28672, 24576, 16384],
   [1022, 1020, 1016, 1008, 992, 960, 896, 768, 512, 0, 30720, 28672, 24576, 16384],
   [32766, 32764, 32760, 32752, 32736, 32704, 32640, 32512, 32256, 31744, 30720, 28672, 24576, 16384]]
  (by decide +kernel)

theorem rejected5 : ¬ Derivable accepted Name.«date-time» c!"1Jan0001:00Z" := not_derivable_of_refutes
  [[0, 4, 8, 16, 0, 0, 0, 0, 0, 0, 0, 4096], [], [], [2, 0, 0, 0, 32, 64, 128, 256, 0, 1024, 2048], [], [], [], [],
   [2, 4, 8, 16, 32, 64, 128, 256, 512, 1024, 2048, 4096], [], [], [], [2, 4, 8, 16, 32, 64, 128, 256, 512, 1024, 2048, 4096],
   [2, 4, 8, 16, 32, 64, 128, 256, 512, 1024, 2048, 4096], [], [], [2, 4, 8, 16, 32, 64, 128, 256, 0, 1024, 2048, 4096],
   [510, 508, 504, 496, 480, 448, 384, 256, 0, 7168, 6144, 4096], [510, 508, 504, 496, 480, 448, 384, 256, 0, 7168, 6144, 4096],
   [510, 508, 504, 496, 480, 448, 384, 256, 0, 7168, 6144, 4096], [2, 4, 8, 16, 32, 64, 128, 256, 512, 1024, 2048, 4096],
   [2, 4, 8, 16, 32, 64, 128, 256, 512, 1024, 2048, 4096], [], [510, 508, 504, 496, 480, 448, 384, 256, 0, 7168, 6144, 4096],
   [510, 508, 504, 496, 480, 448, 384, 256, 0, 7168, 6144, 4096], [2048], [], [], [64], [2, 0, 0, 0, 96, 192, 384, 256, 0, 3072, 2048], [0, 16],
   [0, 0, 0, 0, 64, 128, 256, 0, 0, 2048], [0, 0, 0, 0, 0, 0, 2048, 2048], [0, 0, 0, 0, 0, 0, 2048, 2048],
   [2, 0, 0, 0, 96, 192, 384, 256, 0, 3072, 2048], [0, 0, 0, 0, 64, 128, 256, 0, 0, 2048], [0, 0, 0, 0, 64, 128, 256, 0, 0, 2048], [],
   [512, 512, 512, 512, 512, 512, 512, 512], [], [], [], [512, 512, 512, 512, 512, 512, 512, 512],
   [510, 508, 504, 496, 480, 448, 384, 256, 0, 7168, 6144, 4096], [], [512, 512, 512, 512, 512, 512, 512, 512], [], [],
   [510, 508, 504, 496, 480, 448, 384, 256, 0, 7168, 6144, 4096], [510, 508, 504, 496, 480, 448, 384, 256, 0, 7168, 6144, 4096], [],
   [2, 4, 8, 16, 32, 64, 128, 256, 512, 1024, 2048, 4096], [], [], [], [], [510, 508, 504, 496, 480, 448, 384, 256, 0, 7168, 6144, 4096], [], [],
   [2, 0, 0, 0, 96, 192, 384, 256, 0, 3072, 2048], [0, 0, 0, 0, 64, 128, 256, 0, 0, 2048], [2, 0, 0, 0, 96, 192, 384, 256, 0, 3072, 2048],
   [0, 0, 0, 0, 64, 128, 256, 0, 0, 2048], [0, 0, 0, 0, 64, 128, 256, 0, 0, 2048], [], [], [], [], [], [512, 512, 512, 512, 512, 512, 512, 512], [],
   [510, 508, 504, 496, 480, 448, 384, 256, 0, 7168, 6144, 4096], [], [], [], [510, 508, 504, 496, 480, 448, 384, 256, 0, 7168, 6144, 4096],
   [510, 508, 504, 496, 480, 448, 384, 256, 0, 7168, 6144, 4096], [510, 508, 504, 496, 480, 448, 384, 256, 0, 7168, 6144, 4096],
   [8190, 8188, 8184, 8176, 8160, 8128, 8064, 7936, 7680, 7168, 6144, 4096]]
  (by decide +kernel)

theorem rejectedControl : ¬ Derivable accepted Name.«address-list» c!"a@[\u0001]" := not_derivable_of_refutes
  [[2], [], [], [], [], [], [], [], [2, 4, 8, 0, 32], [], [], [], [2, 4, 8, 16, 32], [2, 4, 8, 16, 32], [], [], [2], [2], [2], [2], [2, 4, 8, 16, 32],
   [2, 4, 8, 16, 32], [], [2], [6], [], [], [], [], [], [], [], [], [], [], [], [], [], [], [], [], [], [], [6], [], [], [], [], [2], [2], [], [2, 4],
   [0, 0, 0, 16], [0, 0, 0, 16], [0, 0, 0, 16], [], [6], [], [], [], [], [], [], [], [], [], [], [], [], [], [], [2], [], [], [], [2], [2], [2],
   [14, 12, 8, 0, 32]]
  (by decide +kernel)

end Rfc5322.Rfc
