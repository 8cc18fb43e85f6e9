import Verif.Data.Tok

set_option autoImplicit false

/-! Generated by `tools/tables.py` from `Tables/chimin.table` in the repository. -/

namespace QED
namespace Shipped

/-- The numbers of `chimin.table`. -/
def chiMin : List Tok := [
  x 15 5000000000000005 18, x 15 5748784976988682 18, x 15 6609705742330147 17, x 15 7599555414764671 17,
  x 15 8737642000038419 17, x 16 10046165012825234 16, x 16 11550648500415796 16,
  x 16 13280438914733428 16, x 16 15269277544167071 16, x 16 17555958671075646 16,
  x 16 20185086292982803 16, x 16 23207944168063924 16, x 15 2668349615603158 16,
  x 16 30679536367065896 16, x 15 3527401155359325 16, x 16 40556541539484385 16, x 15 4663016734416101 16,
  x 14 536133611005162 16, x 15 6164233697210334 16, x 15 7087370814634028 15, x 14 814875417310322 15,
  x 15 9369087114301921 15, x 16 10772173450159427 14, x 16 12385381779958563 14,
  x 16 14240179342179017 14, x 16 16372745814388645 14, x 15 1882467903396235 14, x 15 2164380640541532 14,
  x 16 24885117821660584 14, x 16 28611838296751115 14, x 15 3289666123287843 14,
  x 16 37823166377731474 14, x 15 4348745013088919 14, x 15 5000000000000003 14, x 14 574878497698868 14,
  x 15 6609705742330146 13, x 15 7599555414764669 13, x 15 8737642000038428 13, x 16 10046165012825246 12,
  x 16 11550648500415807 12, x 16 13280438914733442 12, x 16 15269277544167088 12,
  x 16 17555958671075664 12, x 15 2018508629298278 12, x 16 23207944168063927 12, x 15 2668349615603157 12,
  x 16 30679536367065898 12, x 16 35274011553593237 12, x 15 4055654153948439 12, x 15 4663016734416103 12,
  x 15 5361336110051618 12, x 16 61642336972103326 12, x 15 7087370814634029 11, x 15 8148754173103228 11,
  x 15 9369087114301928 11, x 15 1077217345015943 10, x 15 1238538177995856 10, x 16 14240179342179016 10,
  x 16 16372745814388652 10, x 16 18824679033962347 10, x 16 21643806405415319 10,
  x 15 2488511782166058 10, x 16 28611838296751113 10, x 15 3289666123287843 10, x 15 3782316637773148 10,
  x 15 4348745013088919 10, x 15 5000000000000002 10, x 15 5748784976988679 10, x 15 6609705742330145 10,
  x 15 7599555414764668 10, ⟨false, 1, 873764200003842, some 14, some (1, 9), 'e'⟩,
  ⟨false, 1, 10046165012825233, some 16, some (1, 8), 'e'⟩,
  ⟨false, 1, 11550648500415795, some 16, some (1, 8), 'e'⟩,
  ⟨false, 1, 13280438914733451, some 16, some (1, 8), 'e'⟩,
  ⟨false, 1, 15269277544167097, some 16, some (1, 8), 'e'⟩,
  ⟨false, 1, 17555958671075678, some 16, some (1, 8), 'e'⟩,
  ⟨false, 1, 20185086292982796, some 16, some (1, 8), 'e'⟩,
  ⟨false, 1, 2320794416806392, some 15, some (1, 8), 'e'⟩,
  ⟨false, 1, 2668349615603157, some 15, some (1, 8), 'e'⟩,
  ⟨false, 1, 30679536367065895, some 16, some (1, 8), 'e'⟩,
  ⟨false, 1, 3527401155359324, some 15, some (1, 8), 'e'⟩,
  ⟨false, 1, 40556541539484376, some 16, some (1, 8), 'e'⟩,
  ⟨false, 1, 4663016734416101, some 15, some (1, 8), 'e'⟩,
  ⟨false, 1, 5361336110051616, some 15, some (1, 8), 'e'⟩,
  ⟨false, 1, 6164233697210331, some 15, some (1, 8), 'e'⟩,
  ⟨false, 1, 7087370814634027, some 15, some (1, 8), 'e'⟩,
  ⟨false, 1, 814875417310322, some 14, some (1, 8), 'e'⟩,
  ⟨false, 1, 936908711430192, some 14, some (1, 8), 'e'⟩,
  ⟨false, 1, 10772173450159437, some 16, some (1, 7), 'e'⟩,
  ⟨false, 1, 12385381779958575, some 16, some (1, 7), 'e'⟩,
  ⟨false, 1, 1424017934217903, some 15, some (1, 7), 'e'⟩,
  ⟨false, 1, 16372745814388664, some 16, some (1, 7), 'e'⟩,
  ⟨false, 1, 18824679033962364, some 16, some (1, 7), 'e'⟩,
  ⟨false, 1, 21643806405415316, some 16, some (1, 7), 'e'⟩,
  ⟨false, 1, 24885117821660575, some 16, some (1, 7), 'e'⟩,
  ⟨false, 1, 28611838296751113, some 16, some (1, 7), 'e'⟩,
  ⟨false, 1, 3289666123287843, some 15, some (1, 7), 'e'⟩,
  ⟨false, 1, 3782316637773147, some 15, some (1, 7), 'e'⟩,
  ⟨false, 1, 43487450130889195, some 16, some (1, 7), 'e'⟩,
  ⟨false, 1, 5000000000000002, some 15, some (1, 7), 'e'⟩]

end Shipped
end QED
