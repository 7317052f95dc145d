# vIQA: a machine-checked model

Subject: `3dct/vIQA` at the pinned commit in `/repo` (never executed, read as text).
Proof assistant: Lean 4.33.0 with Mathlib. Project in `lean/`, build with `lake build`.

## 1. Trusted base

* The Lean 4 kernel and the axioms `propext`, `Classical.choice`, `Quot.sound`
  (the only ones any theorem depends on; `lean/Verif/Audit.lean` prints them for
  every property theorem). No axioms of our own, no `sorry`, no `native_decide`.
* That the definitions in `lean/Verif/Model/*.lean` say what the cited Python and C
  lines do. Every definition cites its lines. The model is a shallow embedding:
  one Lean function per Python function, branch by branch, with exceptions as values.
* The behaviour of third-party code, as stated in section 2.

## 2. What is modelled and what is not

* **Exceptions** are values (`Except Exc α`) carrying the kind and, where the code
  distinguishes several causes, the message. **Warnings** are collected in a list where
  a property talks about them.
* **Arrays** are a shape and an index function; only in-range indices are meaningful and
  every statement about contents is quantified over in-range indices. Where memory layout
  matters (C extension, QMeasure) arrays are a buffer with offset and strides.
* **Floating point**: unless a property says otherwise, rounding, overflow and NaN propagation are
  not modelled. Rounding is modelled in C12, C129, C135 to C139, C141, C144 to C148, C153, C193, C194,
  C198, C199 and C201 to C204: every operation is rounded to nearest even with the number of bits
  of its type (unbounded exponents, so no overflow or underflow, except half precision in C153). NaN is
  modelled in C185 and C187, infinities in C195; both are proved to extend the arithmetic of the
  other properties. In the properties with rounding numpy's order of summation is
  an arbitrary binary tree. Floating
  point pixels and scores are real numbers (or elements of any ordered field). Division by
  zero that the code performs is made visible as `none`, never silently totalised.
  Fixed width integer arithmetic *is* modelled (wrap-around of numpy integer arrays,
  NumPy < 2 promotion as required by `requirements/default.txt`).
* **CPython**: identity of small integers (−5..256 cached, larger ones not) is modelled
  because `normalize_data` compares with `is not`.
* **Libraries**: `re.search` for the two patterns used, `os.path.splitext`, Python slicing,
  `numpy.rot90/flip/reshape/repeat/fftshift`, `skimage.metrics.mean_squared_error`,
  `peak_signal_noise_ratio`, `rgb2gray`, `csv` are modelled by their documented
  behaviour. `skimage.transform.resize`, the `piq` metrics, `nibabel`, image decoders and
  the FFT values themselves are parameters (arbitrary functions), with an explicit
  hypothesis wherever a property of them is needed.
* **Parameters and limits per topic.**
  SSIM: negative window sizes are modelled for C220 only. GSM: the `experimental` argument is
  modelled in C217 only. `correlate_convolve_abs`: cubic kernels and non-empty axes only. MAD: the values
  of contrast sensitivity, Fourier transform and Gabor filters are parameters; indices, blocks,
  statistics and combination are modelled. Regions: distance transform and `argmax` in exact
  arithmetic, semantics of masked arrays trusted. Batches: what an
  interrupted calculation leaves behind is modelled in C142 and C143. Display: which pixels are shown where is modelled, drawing is
  trusted; overlays of SNR are modelled in C124. CSV: the sniffer is modelled for the header of pair
  files, the field size limit is not. Scripts: sizes are natural numbers below 2^63. Widgets:
  the semantics of `ipywidgets` (clamping of sliders, order of callbacks) is trusted, one panel
  per metric. Reports: rounding is a parameter.
* **Not modelled**: plotting (except index checks, layout arithmetic and argument
  passing), console output, progress bars, `QMeasureCalculation` (git submodule, absent
  from the checkout), deprecated batch loading beyond its guard, ASCII only digits in file
  names, timing.

## 3. Structure

* `Verif/Model/*`  – the model, one file per source file or topic.
* `Verif/Spec/*`   – specifications that several property files share.
* `Verif/Lemmas/*` – helper lemmas, not part of the claims.
* `Verif/Props/*`  – the property theorems (names `Cnn_…`), their independent
  specifications and a non-trivial `example` for every theorem.
* `Verif/Audit.lean` – `#print axioms` for every property theorem.
* `MANIFEST.json` maps properties to theorems; `seeded/LOG.jsonl` is the mutation log.

Naming: `Cnn_…` full property; `Cnn_…_partial` proved part of a property which the code
does not satisfy in full; `Cnn_…_refuted` proof, by a concrete witness, that the
unrestricted property is false of the code.

## 4. Plan per property

| id | title | model and proof |
|---|---|---|
| C01 | Voxel order of raw and mhd volumes | Model `loadBinary` (reshape of reversed dims, rot90 with axes (0,2), flip axis 0 as index maps). Proof: index arithmetic, compared with the closed formula x+X(y+Yz). |
| C02 | Data file size check | Byte list → items (floor of length / item size), size check. Proof: iff characterisation, index map is a bijection onto [0, XYZ). |
| C03 | Round trip of a volume through a raw file | Little endian encode in the spec, decode in the model; proof by induction over items combined with C01 and C04. |
| C04 | Size and bit depth are read back from the file name | Executable model of the two regex searches; proof by induction over the prefix and decimal printing. |
| C05 | Exactly the documented bit depths are accepted | Table lookup over all strings; decision logic. |
| C06 | An mhd header is read independently of the order of its lines | Header text split into lines and ' = ' pairs; proof by induction over the lines, permutation invariance. |
| C07 | An mhd header without a final newline is read like one with it | Expected refuted: the last line is dropped unconditionally. Witness plus general theorem that the last entry is lost. |
| C08 | File type dispatch | splitext model + dispatch; decision logic over all strings. |
| C09 | Argument checks of load_data | load_data as a function of a sum type of inputs; decision logic. |
| C10 | load_data without normalization and region of interest returns the image unchanged | Same model; equality of images. |
| C11 | Normalization maps the image range linearly onto the data range | Normalisation over the rationals; algebra. Refuted for float16 images whose range is too wide for float16 products. |
| C12 | Normalizing a normalized image changes nothing | Idempotence for ranges 1 and 255 proved; for 65535 refuted by witness (integer wrap). |
| C13 | Normalization of integer images follows the documented formula | Integer model with wrap-around; refuted by witness; partial: equals the formula when (max-min)*hi fits; signed images with their own limits and refutation. |
| C14 | Unsupported ranges and data types are rejected | Decision logic over all ranges. |
| C15 | Cropping returns exactly the requested region | Python slice model; proof by index arithmetic. |
| C16 | Cropping either returns the requested region or raises | Expected refuted (clipping, wrap-around, ignored offset); partial: exact characterisation of what is returned. |
| C17 | A region may span the full extent of some axes | Expected refuted for mixed extents and for colour; partial: strictly smaller or identical regions. |
| C18 | Images handed to full-reference metrics are comparable | `checkImgs` model on top of load_data; postcondition. |
| C19 | Grey scale data is never treated as colour | Expected refuted for a last axis of length 3; partial otherwise. |
| C20 | Colour to grey conversion | Weighted mean with clipping; algebra over ordered fields. |
| C21 | Image statistics describe the array they are attached to | State machine of attribute propagation; refuted (stale slices, integer histogram); partial invariant. |
| C22 | Resizing only happens when needed | resize as parameter with shape hypothesis; decision logic. |
| C23 | Constructor check of metrics | Decision logic. |
| C24 | Comparison of metrics is comparison of scores | Order laws from a linear order on scores. |
| C25 | score_val is the result of the last successful scoring | State machine over call sequences; induction. |
| C26 | Exporting results is repeatable | State machine on metrics and file; refuted (None becomes 'n/a'); partial for scored metrics and third export on. |
| C27 | Fusion is the weighted sum | Sum over zip; induction, permutations. |
| C28 | RMSE is a distance | Real numbers, Cauchy–Schwarz / Minkowski. |
| C29 | PSNR laws | Real logarithm; values in ℝ ∪ {∞}. |
| C30 | SSIM of identical images and symmetry | SSIM over weighted windows in ℝ; algebra. |
| C31 | SSIM is bounded | Cauchy–Schwarz for weighted sums. |
| C32 | SSIM argument checks | Decision logic on shapes, natural number arithmetic. |
| C33 | UQI is SSIM without stabilizing constants | Refuted: keyword names differ; theorem that UQI uses the default constants, witness image. |
| C34 | Slice selection of the 2D metrics | Dispatch functions for all six metrics; decision logic. |
| C35 | A full volume is scored slice by slice along dim | Partial for MAD/GSM; refuted for the four others (axis 2 is always used). |
| C36 | GSM of identical images is one | GSM over ℝ with division by zero as none. |
| C37 | GSM luminance term depends on the distance of the pixels | Modular subtraction; refuted for unsigned types; partial for floats. |
| C38 | Gradient kernels ignore brightness | Kernels as integer arrays, rot90 as index map; sum zero lifted to all images. |
| C39 | MAD interpolates between its two components | Real powers, weighted geometric mean. |
| C40 | MAD can be computed for every image size | Counting of range() sequences; iff with divisibility. |
| C41 | The C extension reads and writes inside its buffers | Access model of the C loops: set of (row, column) accesses; proof for square images, witness otherwise. |
| C42 | No uninitialized value enters the appearance index | Write set of the C loops vs. the region read; proof for square images, witness otherwise. |
| C43 | The minimum standard deviation is a minimum over the neighbourhood | Model of the search loop bounds; refuted beyond half a block; partial. |
| C44 | The C extension sees the pixels of the array it is given | Strided buffers; iff C-contiguous; witness for the real part of a complex array. |
| C45 | MAD argument checks | Decision logic; the product of overlap and block size is rounded to float64, and a float64 number below one times the block size stays below it. |
| C46 | Concurrent MAD computations do not influence each other | Interleaving semantics of two threads over shared globals; refuted by a schedule; partial for serial schedules. |
| C47 | Block extraction | List model; exact description. |
| C48 | Integer and float images get the same lightness | Lookup table vs. formula. |
| C49 | Frequency filters are centred on the zero frequency | Index arithmetic modulo n: refuted for odd sizes, proved for even; inverse shift for all. |
| C50 | Arguments are not modified | Heap model of list vs. array in-place division. |
| C51 | Local correlation is aligned with the image | Window index model; refuted; partial: exact window described. |
| C52 | Cubic and spherical regions | Masks from the slice model; membership and cardinality. |
| C53 | Regions crossing the border are rejected | Border check; refuted for upper borders and negative centres; partial. |
| C54 | CNR laws | Real numbers; invariance by algebra. |
| C55 | SNR laws | Real numbers; invariance by algebra. |
| C56 | Regions given in a call are used for that call | Parameter state machine; refuted for partial keyword sets; partial for complete ones. |
| C57 | SNR and CNR support colour images | Branch model; refuted for cubic regions and CNR; partial for spherical SNR in YUV mode. |
| C58 | Automatic centres are valid | Binary morphology on index sets, squared distances; proof by border argument. |
| C59 | Foreground and background thresholds partition the image | Percentile thresholds; disjointness proved; union refuted for minimum pixels. |
| C60 | Interactive centre selection saves what is shown | Machine over user events with sliders, module variables and stored parameters; invariant by induction over event sequences for one panel and radii that leave room; refuted for two panels, for the largest radius offered and for SNR of 2D images. |
| C61 | Constructor checks of the batch classes | Decision logic. |
| C62 | Batch results are complete | Induction over pairs. |
| C63 | Batch results equal individual results | Cache invariant by induction; refuted for differing regions or resizing; partial otherwise. |
| C64 | Images are loaded only when they change | Trace of load events; induction. |
| C65 | Rows of the batch result file match its header | Key lists; induction. |
| C66 | Every metric can be used in a batch | SNR has no name: refuted; duplicate names collapse; partial for distinct named metrics. |
| C67 | 3D visualisation accepts exactly the valid slices | Bounds check; off by one refuted; partial. |
| C68 | Image export shows one chosen slice | Set logic and layout arithmetic; equal indices refuted; layout injectivity proved. |
| C69 | QMeasure converts every volume to 32 bit float | Volumes in memory (words, strides, base address), the conversion by _to_float with numpy's order 'K', and the words read through the raw data pointer; index bijections for packed layouts; refuted for float64, views and by layout. |
| C70 | Central crop script | load_volume, crop, the renaming by re.sub and tofile, composed with load_raw; the central part as a predicate on extents and margins. Written files are read back item by item by induction over the shape. Refuted for x and y extents that differ. |
| C71 | Projection reduction | Slicing with a step, np.stack, tofile, composed with the loader; refuted for negative factors. |
| C72 | Stacked volumes can be loaded again | _load_binary of every file, np.array, naming and tofile, composed with load_raw; exact condition for single slices, refuted for all deeper images. |
| C73 | Pair file generation | Names as text, rows as nested loop; characterised by prefix of the name up to the first dot; refuted for every stem longer than three characters. |
| C74 | Pair file round trip | The csv writer and the state machine of the csv reader (with the dialect found by the sniffer for the header) over all texts; round trip by induction over fields and rows; refuted for every file with a quote in a name. |
| C75 | SSIM is 1 only for identical images | Equality case of the Cauchy-Schwarz argument of C31, coverage of all pixels by the averaged windows. |
| C76 | Documented border modes are accepted | Table of the mode names SciPy knows; refuted for edge and symmetric. |
| C77 | The window size is ignored with Gaussian weights | Refuted: the variance scaling and the cropped border use win_size; partial: the filter itself does not. |
| C78 | Colour SSIM is the mean of the weighted channel scores | Model of the colour branch of SSIM.score; algebra. |
| C79 | Colour images can be scored by every metric that offers chromatic | Loading (C18) and dispatch composed; refuted for VSI, GSM, MAD for every colour image. |
| C80 | Ignored arguments are reported | Truth value of the arguments; refuted for 0. |
| C81 | GSM does not depend on the orientation of the images | Refuted by a one-row image whose mirror image has a score while it has none. Partial: every kernel changes sign when it is turned by 180 degrees, so turning and inverting both images permutes the gradients, and the means, the largest gradient and the choice of the kernel do not depend on the order of the pixels. |
| C82 | Gradient kernels measure the direction they are named after | Response to an affine image computed symbolically for every kernel (moments, whole finite table), lifted to all images and interior positions; refuted for the planar and spatial diagonal kernels. |
| C83 | GSM is at most one | Elementary inequalities for every pixel, then the mean. |
| C84 | MAD of identical images is zero | Length of the inner region as a function of the sizes; refuted for accepted images of at most two blocks; identity otherwise. |
| C85 | Thresholds determine the combination parameters, with the documented warnings | Case analysis of the threshold logic; numerical bounds on exp and log for the documented values; refuted: the warning is unconditional. |
| C86 | Block size one compares images without blocks | NaN propagation through the sample deviation of one pixel; refuted for all images; partial: exact condition for a nonzero detection index. |
| C87 | The visibility mask is finite, non-negative and monotone | IEEE special values as an explicit type; case analysis and monotonicity of log. |
| C88 | Scoring does not leak memory | Reference count model of the two C functions; induction over call sequences; refuted. |
| C89 | The automatic full region is the eroded one | Masked array semantics of `~region`: the data, not the mask, is used; erosion is strictly smaller on non-empty sets (minimal first coordinate). Refuted for every image with a detected region. |
| C90 | Automatically found regions lie in the detected region | Interior from C58; refuted in general for integer distances and by a rectangle for cubes. |
| C91 | A region selected interactively is the one scored | Saved dictionary composed with the state machine of C56; refuted for spherical, full and original regions; partial for cubic ones. |
| C92 | Colour conversion of grey pixels | Matrix product written out; refuted for every grey pixel that is not black; partial: the rows have the right sums. |
| C93 | Automatic centres need no centre | State machine of C56; refuted for every image; partial: independence of the passed values. |
| C94 | CNR of a whole image is zero | Region selection; algebra. |
| C95 | Every pair of a batch has its region | Creation condition of C61 and the list access; refuted for the empty list. |
| C96 | Regions of a batch are parts of the loaded images | Preparation of a pair split into the two images; slices from C15; refuted with normalisation and for three columns by evaluated witnesses. |
| C97 | Metadata files tell the parameters of each metric | Text of the file as lines; injectivity by induction over entries and parameters; refuted for texts with line breaks. |
| C98 | Views show voxels at their coordinates | Slices of C15, reversing and rotation written as index functions. |
| C99 | Lines mark the slices shown | Lines of the views; refuted for negative indices of every volume. |
| C100 | Marked regions are the scored regions | Marks as point sets, compared with the regions of C52 to C54; proved for volumes, refuted for 2D images. |
| C101 | All views of a 2D image have the same orientation | Index functions; exact condition, refuted by an image of two pixels. |
| C102 | Centres of CNR can be shown | Argument checks of visualize_centers; refuted for all arguments without region_type. |
| C105 | write_to_csv runs as its usage says | Argument access and directory creation; refuted. |
| C104 | Reduced projections can be written to the current directory | os.path.dirname and makedirs; refuted for every path without a slash. |
| C103 | QMeasure histogram range covers the volume | int() of minimum and maximum over the rationals, C int limits; exact condition, refuted for values in [0,1). |
| C106 | Opening the interactive choice changes nothing | Same machine; refuted for every accepted start, partial for values stored before. |
| C107 | Saved centres fit into the image | Same machine and invariant; refuted for the largest radius offered and for starting values. |
| C108 | print_score prints the score or warns | print_score of all thirteen classes as functions of the stored score; composed with the model of score and export_results; refuted for three classes and after an export. |
| C109 | Printed and exported names agree | Names as tables over all classes (decide over the whole table); exact condition, refuted for chromatic metrics and SNR. |
| C110 | Reports do not overwrite each other | Path building as text; injectivity from the position of separators and the decimal notation of numbers. |
| C111 | A report writes what it was asked for | report as a list of effects (also those before an exception) composed with the batch calculation of C62/C63/C65; exact list of files; refuted without directory, before the calculation, and for missing images of MultipleMetrics. |
| C112 | Comparison images show what was scored | export_image's preparation composed with the batch calculation and C63: planes of the images that are scored; refuted for identical neighbouring pairs and for MultipleMetrics. |
| C113 | Saved visualizations show the image | pyplot as a state machine (open figures, files, displays); exact content of the saved file for every state before and both kinds of backends; refuted for backends that close figures. |
| C114 | Figures do not accumulate | Same machine; induction over the pairs of a report gives the exact open figures; refuted. |
| C115 | visualize handles 2D images, colour images and volumes | Branch model composed with visualize_3d (C67); refuted for colour images and the category of the warning. |
| C116 | Optional packages | Import system as a parameter; exact condition of success; refuted for missing names. |
| C117 | Choosing centres outside of notebooks | Composition with C102; refuted for every image. |
| C118 | Documented reductions of the piq metrics | Tensor of slice scores, reduction and conversion to float; refuted for none. |
| C119 | Messages name the argument that is missing | Messages as part of the dispatch model; exact condition, refuted. |
| C120 | Contrast sensitivity follows the spatial frequency | The grid, direction factor and weight over the real and complex numbers; symmetry from algebra of the direction factor, strict fall from 1+x < exp x; refuted for images that are not square. |
| C121 | write_to_mat converts every folder with a volume | The loop over the entries of the directory with the files written before an exception, composed with normalize_data (C11, C13); refuted for entries without the volume. |
| C122 | Statistics can be calculated for every image | calculate_statistics with the attributes set before and after the histogram and the memory its bins need; exact limits for 32 bit images, refuted for 64 bit images. |
| C123 | describe exports the statistics or warns | describe with the csv writer, read back by the model of csv.reader (C74); refuted for statistics that were not calculated. |
| C124 | SNR.visualize_centers shows the region asked for | visualize_centers with the truth value of arrays, the stored parameters and region and the drawing functions (panels, patches and overlays); composed with the views of C98; refuted for given regions, after a full region was saved, and for overlays of 2D images. |
| C125 | The interactive choice of SNR can be opened again | Module variables, stored parameters and the checks and sliders of the start of set_centers; refuted after full or original, for thresholds and for regions of other metrics. |
| C126 | SNR.set_centers outside of notebooks | Composition with C124; refuted for every image and all starting values. |
| C127 | Scores do not depend on the orientation of the images | Flips and exchanges of axes as maps of indices and of window offsets; reading beyond the border commutes with them for each of the five rules; window sums and the mean over the positions are permuted; induction over the sequence of turns. np.rot90 is shown to be such a sequence. |
| C128 | The unit of the gray values does not matter | Homogeneity of the filters, of the three terms of SSIM (square roots included) and of the gradients, maxima and choices of GSM. |
| C129 | GSM does not depend on which image is the reference | Exchange of the arguments in every step of GSM; refuted for equal mean gradients (the first image provides the divisors) and for unsigned images. C129_rounded_partial: the same with rounding after every operation (Model/GsmRounded). |
| C130 | The appearance index compares structure, not brightness | gabor_convolve over the complex numbers with an explicit Fourier transform; the transform of a constant is zero except at frequency zero (sums of roots of unity), where every filter is zero. Composition with the whole of _low_quality; the statistics of the C extension are an arbitrary function. |
| C131 | Log-Gabor filters are tuned to their wavelength and orientation | Radial and angular components over the reals; the product of two factors of at most one is one exactly if both are; polar coordinates. Refuted for odd sizes, where the grid is not centred (compare C49). |
| C132 | Moving the image moves the filter responses | Shift theorem for the explicit Fourier transform. |
| C133 | Parameters left out of a dictionary argument of MAD get their defaults | Keyword arguments as optional values, dictionaries as partial functions, the whole of most_apparent_distortion; refuted for csf_function, which is indexed with both keys. |
| C134 | The data range of MAD only limits integer images | Whole of most_apparent_distortion; the two lightness maps agree on the pixels, and everything behind them depends on the pixels only. |
| C135 | Normalization in floating point arithmetic | Model/Rounding: round to nearest even with p bits. normalize_data with each operation rounded in the type numpy uses; monotonicity of rounding gives order and range, the error bound gives the distance to the exact map. Refuted for the brightest pixel, which may end one below the limit. |
| C136 | Rounding does not affect the normalization of integer images | A quotient of integers is rounded past an integer only if it is closer to it than half a unit in the last place; the distance of a fraction to an integer it is not equal to is at least one over the denominator. |
| C137 | Flat regions have no signal to noise ratio, rounding included | Orders of summation are binary trees; sums of numbers with few bits are exact for every tree (induction). Refuted with three pixels of the value 0.1 for every tree. |
| C138 | SSIM of identical images is 1 in floating point arithmetic | The local index with each operation rounded. Doubling is exact, so contrast and structure are rounded quotients of the same two numbers whatever the square roots are. The mean is bounded by monotonicity of rounded sums. |
| C139 | SSIM does not exceed 1 in floating point arithmetic | Error analysis of the rounded variances and the covariance against those of the weights, Cauchy-Schwarz for the latter; refuted with two images of 7 x 7 pixels, computed with rational numbers in the kernel. |
| C140 | Images are continued beyond the border as the name of the rule says | Each rule is characterised by divisibility or distance, without remainders and cases; existence and uniqueness of the pixel. The names of correlate_convolve_abs are compared with those of scipy.ndimage; refuted for reflect and mirror, which are exchanged. |
| C141 | SNR and CNR are accurate in floating point arithmetic | A value takes part in at most as many additions as the tree is deep: relative error bounds by induction on the tree. The computed variance is compared with the mean square distance to the computed mean, which is the variance plus the square of the error of the mean. |
| C142 | The results of an object are those of one calculation | Sequences of calls on an object, with the state at the time of an exception. What a call writes does not depend on what is stored (a simulation between two objects, induction over the pairs); the entries stay numbered without gaps (induction over the calls). Refuted for a second call that raises at its second pair. |
| C143 | Returned results stay as they are | Dictionaries are cells of a memory, results are references. MultipleMetrics allocates a new cell per call, so no cell changes (induction over the calls). BatchMetrics returns the reference of its only cell; refuted with two regions. |
| C144 | Zero error only for identical images, as computed | Rounding with gradual underflow (FloatFormat), trees of positions for the order of the additions. Rounding is odd, monotone and keeps powers of two, so a difference of at least 2^-74 survives the square, the sum and the mean. Refuted for float32: squares of smaller differences are rounded to 0. Numbers are rounded to 0 exactly up to half the smallest positive number, which gives the exact conditions. |
| C145 | RMSE and PSNR rank images alike, as computed | Every step of the computation is monotone, also after rounding; log10 is any monotone function. Rounding may make values equal but never reverses them. |
| C146 | Accuracy of RMSE | Without underflow every operation has relative error at most 2^-bits; the factors are collected over the tree by induction and bounded numerically. |
| C147 | GSM of identical images is exactly 1 in floating point arithmetic | The computation of one pixel and np.nanmean with rounding after each operation; the gradient image is a parameter. Main step: a weight and its complement, both rounded, add up to exactly 1 after rounding (ties to even). |
| C148 | GSM does not exceed 1 in floating point arithmetic | Main steps: the numerator of the structure term is at most its denominator after rounding, because 2t - 1 is a floating point number for every floating point number t from 1/2 to 2; the combination is monotone; a sum of n values of at most 1 is at most n. |
| C149 | A batch finds its files in file_dir | Files are found by the parts of their absolute path. Joining paths appends parts (induction over the text). The pair file is opened relative to the working directory; exact condition under which this is the documented place, and a witness. |
| C150 | Scores lie in the ranges of the table in README.md | Sign of each score from its formula: logarithm for PSNR, difference of means for CNR, a bound on the quality of every pixel for GSM; witnesses for negative scores. |
| C151 | Cropping does not change the SNR and CNR of regions in the crop | The selected pixels of the crop are those of the image in the same order: induction over the axes for cubes, distance for balls; composed with the checks of both functions. Witnesses with three columns or slices. |
| C152 | The RMSE of a volume follows from its slices | A sum over all pixels is the sum over the slices of the sums over their pixels: induction over the axes, exchange of sums. |
| C153 | SNR and CNR of half precision images | Model/NoiseHalf: float16 numbers with infinities and subnormals, the sums of np.std as arbitrary trees with intermediate stores, np.mean in float32. Induction over the trees: a sum of values that are not negative is infinite or within a relative error. The quotients (SNR: relative, CNR: relative to the means) follow. Refuted for bright regions. |
| C154 | Small changes of the images change the scores little | RMSE: triangle inequality. The others: continuity in the product topology of the pixels, composed from the filters and the formulas (denominators do not vanish), and turned into tolerances. Refuted for flat regions, whose SNR and CNR are set to 0. |
| C155 | Result files can be read back | Model/ResultFile: the text written by csv.writer for each of the four exports; the text of a number is a parameter. The state machine of csv.reader (Model/PairFile, doublequote) is run over the written text by induction over fields, rows and tables. The header of a batch is sniffed as comma separated. |
| C156 | Pair files written by hand | The state machine of csv.reader with skipinitialspace is run over lines of blanks, name, delimiter, blanks, name by induction; each of the four ends of a line leads back to the start of a record. The sniffed dialect is computed from the header with k blanks. Refuted for headers without blanks. |
| C157 | Pair files may have further columns in any order | The header is sniffed (none of the names contains a delimiter), the written rows are read back (C74), and the dictionary looks up the unique position of each name. Refuted: a comma in the name of another column is preferred as delimiter; rows read stay, so the file is refused whatever follows. |
| C158 | Statistics of an image mean what they are called | Model/PixelStatistics: the statistics as functions of the list of pixels in real arithmetic. Averages are linear and monotone; Cauchy and Schwarz by the discriminant gives the bound of the kurtosis; the bound of mean and median by averaging a pointwise inequality with the indicator of the pixels below the median; the sorted list is unique, so it commutes with gain and inversion. Refuted: scipy returns nan if the standard deviation is small compared to the mean. |
| C159 | The histogram counts every pixel once | np.histogram with uniform bins in real arithmetic: the bin of a pixel is characterized by the edges (floor), the counts are added by induction over the pixels. Refuted: 255 bins for 256 gray values. |
| C160 | Few changed pixels change SSIM little | Windows that contain no changed pixel give the same local value (all five filtered images agree); the windows that contain one are injected into changed pixels times offsets; each local value is between -1 and 1 (C30), so the sum over the windows changes at most by twice their number. `C160_uqi` for the call made by UQI. |
| C161 | The stronger the distortion, the worse the score | For y = t x + c with t >= 0 the structure term is 1, and luminance and contrast are explicit quotients whose differences factor with known sign; the mean over the windows keeps the inequality. GSM: gradients ignore offsets (C38), so the quality of every pixel is the same number. RMSE and PSNR by homogeneity. Refuted for SSIM and general differences by the explicit scores of an inverted spot. |
| C162 | The two workflows of the user guide give the same images to a metric | The image returned by load_data has two or three axes, so loading the array again without parameters returns it unchanged; _check_imgs only depends on what the two calls of load_data return. Repeating the parameters: an image in 0-255 is already normalized (C13), a region cut again is unchanged if it is given by the size of the result. Refuted by evaluating the model: range 0-65535 and cropping together with normalization. |
| C163 | The format of the file does not matter | Model/Nifti: the parts of nibabel that load_nifti uses (data types, Fortran order, scaling in double precision, byte order) and the numbers of bit patterns. The position of a voxel is the same polynomial as for raw files (C01); items of up to 32 bits and floats are numbers of double precision, so the conversion is exact. Refuted: the type is always float64, so _check_imgs refuses pairs of different formats and normalization treats 8 bit data differently; four axes are rejected. |
| C164 | The data of an mhd volume are read as its header describes them | By C06 only three entries of the header matter; the voxels follow from C01. Refuted: byte order, and headers shorter than an item (the incomplete last item is dropped silently). |
| C165 | The version is the same everywhere | Model/Build: the two scripts as functions of the lines of __init__.py; splitting at separators is computed for arbitrary versions. Refuted: single quotes (documentation), no blanks (build). C165_missing: no version line at all. |
| C166 | Requirement files list the declared dependencies | Joining and splitting lines are inverse; the directory as a function from names to contents, induction over the groups. Refuted: a group called default. |
| C167 | Small changes of the images change the gradient similarity little | Limits along the filter of pairs of images near a pair: responses, mean absolute responses and largest gradient are continuous, strict inequalities between strengths persist, so near the pair the score is one continuous expression. Refuted: a row with a flat part (pixels without gradient are left out of the mean, pixels with a tiny gradient are not), and two images with edges of equal strength (the divisor switches). |
| C168 | The PSNR of a volume follows from its slices | The squared RMSE is the mean of those of the slices (C152); the logarithm of a mean is at least the mean of the logarithms (tangent of the logarithm at the mean, summed over the slices). |
| C169 | Worse components never improve MAD | The logarithm of MAD is (log d - log a) / (1 + b1 d^b2) + log a; the numerator grows faster than the denominator as long as b2 (log d - log a) <= 1, which reduces to u e^v <= v e^u. Beyond it falls: refuted with explicit numbers. |
| C170 | Keyword arguments of score are used or rejected | Model of Python calls with named arguments and keyword dictionaries; each score method and the function behind it are signatures, the result is the list of keywords nobody reads or the TypeError. Per class the documented names pass all levels, others are rejected; the exceptions are refuted. |
| C171 | The examples of the documentation show the actual scores | Closed forms of the four scores for uniform images of any shape; the examples are instances. The shown scores of SSIM and UQI for black and white are refuted (score C1/(1+C1), printed 0). |
| C172 | The notebooks run for every choice of metrics | The notebooks as data (order, flags, keywords) on top of the models of C66 and C170. Results: the names of the chosen metrics are a sublist of the names of all, hence distinct, and C66 applies. Refuted for SNR (on as delivered), use_sample_covariance of SSIM, GSM on 2D images and images of different shapes. |
| C173 | The comparison figure shows every score at its own place | The nested loops over columns and lines are shown to write entry c at column c/4, line c%4 (induction over columns and lines); positions are exact fractions. The no-reference entries have the last column for themselves. |
| C174 | Keywords of calculate and report are used or rejected | The calls of calculate and report as signatures and keyword dictionaries in the manner of C170; matplotlib is a parameter. Documented keywords of calculate pass, others raise TypeError; report of a batch drops what it says it passes on (refuted). |
| C175 | The score of a volume is the average of its slices, one slice changes it by its share | From the closed form of C35 (mean of the scores of the slices along the axis that is cut): a mean lies between two of its terms, and the means of two lists that differ in one term differ by the difference over their length. |
| C176 | SNR and CNR only depend on the pixels near the given centres | The masks of both kinds of region only select pixels near the centre once the border check has passed (negative coordinates count from the end); the checks depend on the shape alone, so both images take the same path. |
| C177 | RMSE and PSNR do not depend on the arrangement of the pixels | The mean squared error is a sum over the list of pixel pairs divided by its length; it is invariant under permutation and under repetition of the list. Equality of the images is a statement about the members of the list. |
| C178 | The score of a call does not depend on earlier calls | An object is the dictionary parameters; a call of score updates it (cnr.py 138, snr.py 144) and loads twice with the stored and the given keywords. Induction over the earlier calls shows which entries they can change. Refuted for the region of interest, which CNR and SNR remember. |
| C179 | Keyword arguments of constructors are used or rejected | Binding of names to the signatures of class and base class as in C170; the names that no method reads are computed and characterised for all lists of keywords. Refuted for batch, name, chromatic without reference, and for wrong names. |
| C180 | The exponents of SSIM weight luminance, contrast and structure | The weighted local moments after an affine change of one image are computed (linearity of the filter, weights sum to 1); the three terms then change by known factors, the other image follows by symmetry (C30). The order follows from the terms lying in [0, 1]. Refuted for weights that are no integers: they are truncated. |
| C181 | The parameters c and p of GSM act as documented | GSM model of C36. The quality of a pixel is a function of structure (independent of brightness, kernels sum to zero) and luminance; sums over the rated pixels are affine in p (C181_weight), p = 0 removes luminance (C181_zero); (N+k)/(D+k) grows with k and the combination grows with structure for p <= 1/2 (C181_masking, with the hypothesis of a positive gradient somewhere as in C83); C181_masking_p: with p = 1 a greater c can lower the score. |
| C182 | Few changed pixels change RMSE and PSNR by their share | Exact model of RMSE and PSNR (C28, C29). The sum of squares changes only at the changed positions, each term by at most R^2 (sum_few: a list without repetitions meets D at most |D| times); (a-b)^2 <= |a^2-b^2| for the roots. |
| C183 | A greater data range is more forgiving | SSIM: every term has the form (n+c)/(d+c) with n <= d and grows with c; for images without negative gray values that vary alike the terms are not negative and so is their product (C183_ssim_partial for K1, K2 and data range). PSNR: C183_psnr, exact. GSM: luminance grows with the data range, its factor p con is not negative where gradients do not oppose (C183_gsm_partial). Refuted in general: a product with a negative factor falls (C183_ssim_refuted with three pixels that vary inversely, C183_gsm_refuted with opposite slopes). |
| C184 | Normalization does not change the contrast to noise ratio | Composition of the models of normalize_data (C11, C13) and CNR (C54). To (0, 1) the normalization is an affine map with positive factor (normalize_unit) and CNR is invariant (C54_affine): C184_partial for floating point images and all regions, C184_unsigned_partial for unsigned images. Refuted for (0, 255): the background of nearly equal gray values becomes flat and CNR 0 (C184_refuted). |
| C185 | Pixels that are not a number do not go unnoticed | Model/NotANumber.lean: images with pixels of type Option, none is nan; sums, squares and windows with a nan are nan (structuralSimilarityN, rmseN, psnrN, snrOfN, cnrOfN). Refinement to the exact models for images without nan (C185_*_numbers). RMSE, PSNR and SNR: proved. Refuted for SSIM, which replaces nan by 1 in every term: an image of nan gets the score of an identical one (C185_ssim_refuted), and overwriting pixels by nan never lowers the score (C185_ssim_raises_refuted, pointwise: a touched window counts 1, C31 bounds the others). Refuted for CNR on a uniform background (score 0). GSM (Model/NotANumberGsm.lean, 2D): a nan of the reference reaches every gradient (kernels_touched) and the constant k, the score is nan (C185_gsm_partial); a nan of the image is not, as Python's max keeps its first argument and nanmean leaves pixels out (C185_gsm_refuted: score 1). Uniform windows keep running sums, in which nan stays to the end of the line (runningOffsets): one nan in the first pixel gives SSIM and UQI of 1 (C185_ssim_first_refuted). |
| C186 | Copied images are those of the pair file | Model/CopyImages.lean: folder as a map from names to contents, copy_file keeps existing files, the two loops as a fold over the pairs; the names of the pairs are the rows of the pair file (pairedFiles_names, refinement of C73's model). Invariants of the fold: files stay (copyPairs_keep), every file has a source (copyPairs_source), every file of a pair is there (copyPairs_there). C186_partial for a new folder and different names in the two directories, C186_only for all. Refuted: with the same name in both directories both names of the row lead to the reference (C186_same_name_refuted), and files of an earlier run stay (C186_stale_refuted). Simplified: glob finds files only. |
| C187 | Normalization does not make an image perfect | Model/NormalizeNan.lean: normalization to (0, 1) of images with nan (the division by a zero range gives nan, a nan in the image makes minimum and maximum nan), refinement to normalizeData for images without nan (normalizeUnitN_data). C187_partial: composition with C75 through C185_ssim_numbers, for images that are not uniform. Refuted: a uniform image and one with a single nan are normalized to nan everywhere, every term of SSIM is replaced by 1 and the score is that of an identical image (C187_refuted). |
| C188 | Averaging images does not worsen the score | Exact models of RMSE and PSNR (C28, C29). Minkowski's inequality for weighted sums, by induction over the images (minkowski_sum); PSNR at least P is a bound of the RMSE (psnr_atLeast); squares of uncorrelated errors add up (sum_square_uncorrelated). Refuted for SSIM: two images with one bright spot each have scores above 1/2, their average below 1/100, as every window then contains a spot (C188_ssim_refuted, with the closed form ssim_four). |
| C189 | Averaging scans does not lower SNR and CNR | Exact models of SNR and CNR. For given centres the positions of a region depend on the shape only (snr_positions, cnr_positions); mean and deviation of the average are the mean of the means and at most the mean of the deviations (meanQ_average, stdQ_average), variances of uncorrelated noise add up (varQ_average). Refuted where the noise cancels and the region becomes flat: the SNR of a flat region is defined as 0 (C189_snr_refuted, for every image and its reflection at the mean). |
| C190 | SNR and CNR follow contrast and noise | Exact models of SNR and CNR. The images are changed in the selected positions only; mean and deviation of an affine image of a list are known (meanQ_affine, varQ_affine of C54), variances of lists without covariation add up (varQ_plus); regions do not change with gray values (snr_positions, cnr_positions of C189). |
| C191 | The bit depth of the normalization hardly matters for RMSE | Composition of normalize_data (C11, C13) and RMSE. The truncation errors of two pixels differ by less than one, and errors that differ by at most one have RMSE that differ by at most one (rmse_errors, Minkowski's inequality in both directions): C191_partial for float32 and float64, C191_unsigned_partial for unsigned images without overflow. Refuted for 16 bit images at (0, 255): the product (p - min) * 255 overflows, the image with pixels 0, 65535 and its negative both become black (C191_refuted). C191_lost: different images can coincide at 8 bit. |
| C192 | Printed scores are the rounded scores | Model/Printing.lean: np.round (scaling by a power of ten, rint, scaling back, each rounded to float64), the shortest text of a float64 number (ReprOf: fewest digits among the decimal numbers rounded to it) and the fixed format of print_values, which rounds the exact value. decimal_unique: decimal numbers of up to 15 digits are determined by the nearest float64 number, so that the text of np.round is the rounded number itself (prints_eq). C192_values for report, C192_print_partial for print_score (half a unit and the rounding error of the product), C192_agree_partial: both agree unless the score is next to a tie. Refuted: 2.675 is printed as 2.68 by print_score and as 2.67 by report (C192_refuted, C192_half_refuted). C192_negative: negative numbers of decimals. Simplified: a text is the number it denotes; powers of ten are exact; no infinite scores. |
| C193 | Accuracy of PSNR | Model/DistanceRounded.lean (psnrRounded: every operation rounded to float64, with underflow). From the relative error of RMSE (C146_digits) and of the square and the quotient (double_round_near) follows the absolute error of the logarithm (log_near: a relative error δ changes the logarithm by at most 2δ), multiplied by 10 and rounded again (double_round_error): psnr_accuracy, C193_psnr. The logarithm of the platform is any function with error η in the range of float64. |
| C194 | Accuracy of SSIM | Model/SsimRounded.lean. The exact index is stated by means and covariances of windows (Spec.ssimIndex). luminance_near: the luminance is exact up to 1/4000; contrast_structure_near: contrast times structure is exact up to 1/80 unless a computed variance is negative. C194_local_partial (1/64 at every position at which both windows are nearly uniform or none is), C194_mean_partial (1/60 for the mean, any order of addition, meanRounded_near). Refuted: a nearly uniform window (1/2 and 1/2 + 1/8192) has a negative computed variance, so that contrast and structure are not a number and are replaced by 1; compared with black and white bars the index is above 0.98 instead of below 0.01 (C194_actual, C194_exact, C194_refuted). The filter is a parameter with an error bound (Accurate). |
| C195 | Infinite pixels do not go unnoticed | Model/Infinite.lean: IEEE arithmetic with infinities and nan (NF.add, mul, div, sqrt, minimum, maximum), RMSE, PSNR, SNR, CNR, SSIM and normalization to (0, 1) on such values. C195_rmse_partial (infinite, or nan if and only if two equal infinities or a nan meet), C195_psnr_partial, C195_snr_partial, C195_cnr_partial: never an ordinary number. C195_ssim_partial: SSIM equals SSIM with nan at the infinite pixels (ssimAtX_eq), so that C185 applies. The value of a filter that has read an infinite pixel is a parameter (InfiniteSums: not finite, not negative infinite without negative infinities); weightedSum_infinite and runningMean_infinite prove these properties of one-dimensional weighted sums and running means. Refuted: identical images have RMSE nan but PSNR inf (C195_identical_refuted); CNR with uniform background is 0 (C195_cnr_refuted); an infinite image has SSIM 1 (C195_ssim_refuted); normalization with an infinite pixel leaves only 0 and nan (C195_normalize_refuted), so that any two such images have SSIM 1 (C195_normalized_refuted). Props/FinitePixels.lean: for images without infinite pixels these definitions give exactly the scores of Model/Distance.lean and Model/Noise.lean, including the cases of no pixels and uniform regions (C195_rmse_finite, C195_psnr_finite, C195_snr_finite, C195_cnr_finite). Not modelled: overflow of finite values, signed zeros. |
| C196 | A failing report does not destroy earlier files | Model/Report.lean (effects of a report; a file without content was opened and emptied before the exception). The files before and after are functions of paths (Spec.Disk, Spec.afterReport). C196_batch_partial: a failing report empties at most one file, a successful one none; C196_calculated_partial: none after a successful calculation, wherever the report fails; C196_multiple_partial: only the metadata file of MultipleMetrics, and only if a parameter for it is missing; C196_others_partial: files not asked for stay as they are. Refuted: a report before the calculation empties the results file of an earlier session (C196_refuted), since the file is opened before the content is made. Simplified: writing into an open file does not fail; parts written before an exception count as empty. |
| C197 | Files are closed after use | Model/OpenFiles.lean: the readers and exports with their events of opening and closing (openFile, withOpen: closed also after exceptions), results equal to those of Model/Loading (C197_raw_partial, loadMhdFiles_result). Spec.leftOpen counts the openings of a path that were not followed by closing. C197_raw_partial, C197_pairs_partial, C197_export_partial: nothing is left open; C197_mhd_partial: the data file of an mhd volume is closed. Refuted: load_mhd opens the header without `with` and never closes it (C197_mhd_refuted), one file more with every volume (C197_many_refuted). CPython closes such files when the function has returned (with a ResourceWarning), after an exception when its traceback is dropped; this is not an event of the code. |
| C198 | RMSE and PSNR of integer images are reproducible | Model/DistanceRounded.lean. Differences, squares and partial sums of integers are numbers of the format as long as they do not exceed 2^53 (2^24 for squares in float32): round_int, eval_int, mse_integer; so only the quotient and the root are rounded. C198_rmse_partial and C198_psnr_partial: equal for any two orders of the same pixels and any two formats (8 bits: up to 2^37 pixels, in float64 and float32; 16 bits: up to 2^21 pixels in float64); C198_exact_partial: the value. Refuted: a volume of 16 bits with 8389632 pixels for which adding the dark pixels one by one loses them (C198_order_refuted), and 16 bits in float32, where the square of 4097 is rounded (C198_type_refuted). |
| C199 | SSIM is 1 only for identical images, as computed | Model/SsimRounded.lean; the exact counterpart is C75. C199_partial: a computed SSIM of 1 means that the exact one is at least 59/60 (from C194). Refuted: in a uniform image of 16 bits with gray value 60000 a pixel with 60049 is not seen (C199_actual, C199_refuted): means, variances and covariance are computed by the uniform filter of scipy (columnsThenRow, with float32 in between), all variances are 0 and the luminance is 1. |
| C200 | Metrics in lists, sets and dictionaries are the objects themselves | Model/MetricList.lean: references to metric objects in Python lists, the methods of lists with their comparison (same object or ==), insertion with <, Python's rule for __hash__ along the method resolution orders. Trusted: Python's containers; its sort is stable and compares with < only. C200_lists_partial: the methods concern the metric itself if no other metric of the list has an equal score; C200_index and C200_false_member say what they do otherwise. Refuted for any two metrics fresh from their constructors (C200_lists_refuted: removing the second removes the first) and for sets and keys of all classes (C200_hash_refuted: __eq__ without __hash__). C200_sorted (permutation, order, stability by induction), C200_sorted_unset, C200_max. |
| C201 | Accuracy of GSM in floating point arithmetic | Model/GsmRounded.lean; the exact formulas are restated as Spec.gsmPixel and Spec.gsmScore. Errors are followed through change, structure, luminance and combination (gsmChange_near, structure_parts, structure_near, gsmLum_near, gsmCombine_near). A huge change of the gradient does no harm because numerator and denominator are both wrong by at most 12 units of the denominator. C201_pixel, C201_score (with eval_signed for sums of both signs), C201_choice (computed means of integer gradients compare like the sums up to 2^52). Not covered: rounding inside scipy.ndimage.correlate, and near ties of the choice for float gradients, where the other divisor may be taken. |
| C202 | UQI lies between -1 and 1 in floating point arithmetic | Model/SsimRounded.lean with both constants 0. C202_local_partial and C202_bounded_partial: at most 1 + 1/64 if the variances of both windows add up to at least the square of the brightest pixel divided by 1000 (the product of contrast and structure is twice the covariance divided by the sum of the variances, also if one of the computed variances is 0). C202_identical: 1 up to 2^-22. Refuted (C202_actual, C202_refuted): two striped images with gray values 1120 and 1121, for which both computed variances are 0, the computed covariance is not, the structure is minus infinity and nan_to_num makes it the most negative number of float32; the same for volumes of 8 bits which are uniform except for one voxel (C202_volume, C202_volume_refuted, with the uniform filter of scipy along the three axes). |
| C203 | Accuracy of UQI in floating point arithmetic | Model/SsimRounded.lean with both constants 0; the formula of Wang and Bovik is restated as Spec.uqiIndex. luminance_near_zero (relative error of the means; windows without negative pixels have a mean of at least the variance divided by the brightest pixel) and contrast_structure_near_zero (the root of the variances cancels). C203_local_partial: one window, 1/60 if both variances are at least the square of the brightest pixel divided by 1000; C203_mean_partial: the score, 1/55. Refuted with the two images of C202 (C203_refuted; the exact index lies between -1 and 1, uqiIndex_abs_le). |
| C204 | SNR and CNR of integer images are reproducible | Model/NoiseRounded.lean. C204_mean: sums of gray values are exact, so the mean is the same in every order. C204_exact_partial: for 2^k pixels of b bits with 2b + 3k <= 53 the mean, all deviations, their squares and the sum are numbers of float64, so the variance is exact; C204_snr_partial and C204_cnr_partial follow. C204_close: any two orders agree up to 2^-27 (from C141). Refuted (C204_refuted): a row of five pixels, one of them bright, and the same row mirrored have the SNR 0.5 and the next smaller number. |
| C205 | Normalization does not change which image is better | Model/Normalize.lean and Model/Distance.lean in exact arithmetic. C205_rmse: RMSE of the normalized images times the contrast of the reference differs from RMSE by at most the shift of the darkest or the brightest gray value (unit_near and the triangle inequality in the form of C154_rmse). C205_ranking_partial: the ranking is kept if the scores differ by more than both shifts; C205_same_range_partial and C205_psnr_ssim_partial: RMSE is divided by the contrast and PSNR (SSIM if the darkest gray value is 0) is that of the images with the contrast as data range if the ranges agree. Refuted (C205_refuted): nine pixels, one of them hot in one image and two dark in the other. |
| C206 | Normalization does not change the signal to noise ratio | Model/Normalize.lean and Model/Noise.lean in exact arithmetic, normalization to (0, 1). C206_formula: what normalization does, the darkest gray value of the image divided by the noise of the region is subtracted from SNR. C206_dark_partial: nothing changes if the darkest gray value is 0, also for automatic regions. C206_lower: SNR never gets better for images without negative gray values, and does not become negative. Refuted (C206_refuted; C206_elsewhere for all images: two images that agree in the region have different scores after normalization as soon as their darkest pixels differ). |
| C207 | Colour images scored with chromatic=False | Model/Images.lean (checkImgs, toGrayscale), Model/Distance.lean. C207_bound (Cauchy-Schwarz per pixel; clipping at 255 only brings gray values closer; the constant sqrt(3 * sum of squared weights) is sharp), C207_psnr, C207_gray_partial (channels equal and at most 255). The last part is false: C207_refuted (the 8 bit colours (100, 100, 100) and (163, 83, 83) have the same gray value in exact arithmetic, RMSE 0 instead of 38.9), C207_same_gray (all images whose weighted differences cancel: RMSE 0, PSNR infinite), C207_clipped (16 bit images with all channels from 255 upwards become the same uniform image). |
| C208 | The border rule has no influence on SSIM | Model/Ssim.lean. C208_border_partial: for the default window size, for uniform weights, and for win_size > 7 sigma, every window lies inside and mode and cval are not read. False otherwise: C208_refuted (win_size=7 with the default Gaussian weights: the filter spans 11 pixels while 3 are cropped; two uniform images score 0.8 with the default rule and less with constant). |
| C209 | The scores of whole images bound those of a region of interest | Model/Images.lean (cropImage), Model/Distance.lean, Model/Ssim.lean. C209_rmse (the squared errors of the image are those of the region plus those of the rest; equality iff the rest agrees), C209_psnr, C209_ssim (every window of the region is a window of the image with the same local statistics, each index is at most 1). |
| C210 | SNR and CNR do not depend on the orientation of the image | Model/Regions.lean and Model/Noise.lean; the turns are compositions of np.flip and exchanged axes together with the map of the centres (Spec.TurnedWith). Membership in a region is a function of the position relative to the centre (inRegion), which a flip reflects and a transposition permutes; so the values of the region are permuted (turnedWith_region). C210_snr_partial and C210_cnr_partial: spheres move with their centre pixel, cubes with the edge before it (a coordinate x becomes n - x); C210_rotated_partial: np.rot90. Refuted: a cube moved with its centre pixel covers other pixels since it reaches from c - r to c + r - 1 (C210_cubic_refuted: SNR 7 and 9); regions may extend beyond the last but not the first pixel of an axis (C210_border_refuted); an image with three rows is rejected after transposition (C210_narrow_refuted). |
| C211 | Exchanging bright and dark in both images does not change the scores | Model/Distance.lean, Model/Ssim.lean, Model/Gsm.lean, Model/Noise.lean. C211_rmse and C211_psnr for all images; C211_cnr for given centres. SSIM: variances and covariances of the windows stay the same (stats_negative), so contrast and structure do; the luminance does not. C211_ssim_partial: exponent alpha 0 or windows of equal brightness. Refuted: uniform images with gray values 0 and 51 of 255 score 1/401, their negatives 16001/16401 (C211_ssim_value for all sizes, C211_ssim_refuted; ssim_uniform: SSIM of uniform images is the luminance term). GSM takes the largest gradient and the divisor with their signs: a bright bar has the score 1 with itself, its negative none (C211_gsm_partial (the score of the negatives is that of both images turned by 180 degrees), C211_gsm_refuted); negatives turned by 180 degrees have the same score again (C81_turned_partial). |
| C212 | RMSE covers the differences of the statistics | Model/Distance.lean, Model/PixelStatistics.lean, Props/StatisticsRmse.lean. C212_statistics: the squares of the differences of means and standard deviations add up to at most the square of RMSE (Cauchy-Schwarz, avgOn_split), so both are at most RMSE. C212_offset: RMSE^2 is the square of the offset plus the variance of the difference image. Minimum, maximum and median only satisfy the bound with the factor sqrt(number of pixels): C212_extrema_partial, C212_median_partial; C212_refuted: three pixels for which median and maximum differ by exactly sqrt(3) times RMSE. |
| C213 | Losses along a chain of processing steps | Model/Distance.lean, Model/Ssim.lean, Props/Chain.lean. Chains are inductive predicates (Spec.Chain, Spec.PsnrChain). C213_rmse by induction with the triangle inequality (C28_triangle). C213_psnr: a PSNR of at least P is an RMSE of at most dr * 10^(-P/20) (atLeastDb_iff), so n steps lose at most 20 log10 n dB. Refuted for SSIM (C213_ssim_refuted): uniform images with gray values 51, 102 and 204 lose 0.2 in each of two steps and 0.53 in both. |
| C214 | Regions found automatically turn with the image | Turns act on positions as maps that keep distances (`Moves`). The neighbours of a pixel are the positions at distance at most one, so erosion and dilation commute with every turn, and so does the distance transform; the percentiles depend on the sorted pixels only. The largest depth and with it the radius is the same for all turns (`C214_radius`). The first pixel with the largest depth turns with the image if it is the only one (`C214_centre_partial`), and the scores of spheres follow with C210 (`C214_snr_partial`, `C214_cnr_partial`). Region types that follow the shape of the object or take the whole image need no such assumption (`C214_shape`). `C214_refuted`: two objects of the same size, the SNR of the mirror image is 10 instead of 5; `C214_cubic_refuted`: cubes are not placed symmetrically around their centre (C210), so their SNR changes even for one deepest pixel. |
| C215 | The radius found grows with the object | Dilation, erosion and the distance to the nearest pixel outside are monotone in the object; after an erosion the border of the image is outside, so the distance is that to a pixel (`C215_object`). Percentiles with interpolation are monotone (`percentile_mono`), hence the binary images are nested (`C215_percentiles`). Each further iteration adds a dilation and an erosion, whose composition contains the object as long as the dilated object does not touch the border (`C215_iterations_partial`). SciPy takes pixels beyond the border as not set, so near the border the erosions win: `C215_iterations_refuted`. |
| C216 | Automatic signal and background are different regions | If the closing adds no pixels to either part, the ball around each centre lies in its part of the gray values, and the parts are separated by the 90th percentile (`C216_partial`, by C58). Refuted in general: the closing joins four separate bright pixels, so signal and background get the same centre and radius and CNR is 0 (`C216_refuted`); with `iterations=0` SciPy dilates until nothing changes. By induction over the steps between two pixels every non-empty object then fills the image, so for every image both regions are the same and CNR is 0 (`C216_zero_refuted`). A negative number also repeats the erosion until nothing changes; every erosion removes a layer at the border, so nothing is left and CNR raises for every image (`C216_negative_refuted`). |
| C217 | The argument experimental of GSM can be given for every image | Model/Experimental.lean: GSM.score and gradient_similarity_3d with the argument given or left out; without it this is the choice of Model/Dispatch.lean (`dispatchGsm_left_out`). Proved for full volumes: `C217_false_partial`, `C217_true_partial` (dim has to be given but has no influence). Refuted: a wrong dim is not noticed with experimental=True (`C217_dim_refuted`); for slices and 2D images the argument is passed on to a function that does not know it, so every value, also False, raises TypeError (`C217_slice_refuted`, `C217_plane_refuted`). |
| C218 | Automatic regions depend only on the order of the gray values | A pixel exceeds an interpolated percentile if and only if the number of darker pixels exceeds the integer part of the position, which depends on the number of pixels only (`percentile_rank`, by `sorted_rank` and induction over the sorted pixels). The number of darker pixels is the same in both images, hence the binary images agree at every pixel (`C218_binary`); cleaning, distance transform and maximum only look at pixels of the image (`C218_found`, `C218_snr`, `C218_cnr`). `C218_curve` is the special case of strictly increasing functions. |
| C219 | Thresholds select the share of pixels they name | The pixels up to the position of the percentile in the sorted list are not above it (`sorted_above`), which gives the bound `C219_at_most` for all images. If all gray values differ, all later pixels are above it by `percentile_rank` of C218: `C219_exact_partial`. Refuted for equal gray values: if more than a tenth of the pixels has the greatest gray value, no pixel is above the 90th percentile; the binary image is constant, and the search, SNR and CNR raise ValueError for every such image (`C219_saturated_refuted`). |
| C220 | SSIM rejects window sizes that are not positive | `structuralSimilarityInt` models integer window sizes of any sign (Model/NegativeWindow.lean). Zero and negative even sizes raise ValueError (`C220_even_partial`); -1 raises ZeroDivisionError for 2D images (`C220_one_partial`). Refuted for the other negative odd sizes: both checks pass, the uniform filter is the identity, and the crop keeps the last (1 - win_size) / 2 pixels of every axis. All images that agree in this corner have SSIM 1 (`C220_corner_refuted`), and only these, for the usual exponents and constants (`C220_exact_refuted`). |

## 5. Disagreements found

Properties that the code does not have. Each is proved false by the theorems named `_refuted`, and what holds is proved by the others (`MANIFEST.json`).

* **C07 An mhd header without a final newline is read like one with it.** The code violates the property: C07_final_newline_refuted gives a header whose reading changes. The partial theorems state exactly what is read instead. (C07_final_newline_refuted)
* **C11 Normalization maps the image range linearly onto the data range.** Proved for all floating point images and the three output ranges, except float16 images whose extent, or for the upper limit 255 extent times 255, is 65520 or more (products with 65535 are float32): the products are infinite and there is no result (C11_half_overflow, C11_half_refuted). A constant image has no result either (C11_constant_image). (C11_half_refuted)
* **C12 Normalizing a normalized image changes nothing.** Holds for the ranges 255 and 1 (partial theorems). For 65535 the second normalization changes the image (C12_refuted; C12_range_65535_destroys gives the result exactly). In floating point arithmetic: C12_unit_rounded. (C12_refuted)
* **C13 Normalization of integer images follows the documented formula.** The documented formula fails for the brightest pixel (C13_refuted); C13_actual_formula gives the exact formula for all inputs, C13_documented_formula_partial and C13_signed_partial the parts that hold. For signed images differences wrap around as well (C13_signed_wraps, C13_signed_refuted). (C13_refuted, C13_signed_refuted)
* **C16 Cropping either returns the requested region or raises.** Regions inside the image (C16_inside_exact_or_raises_partial). Ranges beyond the border are cut off (C16_clipped), and a region of the size of the image ignores its offset (C16_full_size_ignores_offset). (C16_refuted)
* **C17 A region may span the full extent of some axes.** Exact condition in C17_accepted_iff: smaller along every axis or the full extent along every axis. Mixed regions and all colour images are refused (C17_refuted, C17_colour_never). (C17_refuted)
* **C19 Grey scale data is never treated as colour.** Volumes with three slices along the last axis are converted as if they were colour images (C19_refuted); all other grey images are unchanged (C19_values_unchanged_partial). (C19_refuted)
* **C20 Colour to grey conversion.** Holds for channels up to 255 (C20_gray_partial); brighter pixels are clipped to 255 (C20_refuted). (C20_refuted)
* **C21 Image statistics describe the array they are attached to.** Statistics are valid right after calculation (C21_after_calculate) but become stale or inconsistent (refuted theorems); C21_derived_valid_iff gives the exact condition. (C21_histogram_refuted, C21_stale_refuted)
* **C26 Exporting results is repeatable.** Exporting replaces missing scores by "n/a", so a second export differs (C26_refuted); C26_repeatable_iff gives the exact condition. (C26_refuted)
* **C33 UQI is SSIM without stabilizing constants.** UQI passes k_1=0, k_2=0, but the callee reads K1, K2: C33_actual states what is computed, C33_refuted that it differs from the documentation. (C33_refuted)
* **C34 Slice selection of the 2D metrics.** Holds for volumes whose last axis does not have length 3; those are taken for colour images (C34_three_slices, C34_refuted). (C34_refuted)
* **C35 A full volume is scored slice by slice along dim.** Holds for GSM and MAD and for the last axis; the four piq metrics ignore dim (C35_piq_last_axis, C35_refuted). (C35_refuted)
* **C36 GSM of identical images is one.** An image with itself scores 1 or is not a number; C36_identical_iff is the exact condition, C36_refuted an image that is not flat and has no score. (C36_refuted)
* **C37 GSM luminance term depends on the distance of the pixels.** Holds for floating point images; unsigned images wrap around (C37_unsigned_actual, C37_refuted for every bit width). (C37_refuted)
* **C40 MAD can be computed for every image size.** Holds for overlap 0.75 and sides divisible by the stride (C40_partial); C40_index_error: IndexError for every other size; C40_misplaced: wrong positions for overlap 0.5. (C40_refuted)
* **C41 The C extension reads and writes inside its buffers.** C41_bounds_iff is the exact condition; every image wider than high by at least the stride reads out of bounds (C41_wide). (C41_refuted)
* **C42 No uninitialized value enters the appearance index.** Holds for square images, with the exact content of the maps (C42_square); images twice as high as wide use uninitialized entries (C42_tall). (C42_refuted)
* **C43 The minimum standard deviation is a minimum over the neighbourhood.** The search bound is absolute, so only blocks near the origin search (C43_minstd, C43_refuted). (C43_refuted)
* **C44 The C extension sees the pixels of the array it is given.** Holds for contiguous arrays; the real part of a complex array is read wrongly (C44_real_view, C44_refuted). (C44_refuted)
* **C46 Concurrent MAD computations do not influence each other.** Module globals are shared: refuted by a schedule; holds for sequential runs and for equal parameters. (C46_refuted)
* **C49 Frequency filters are centred on the zero frequency.** Zero gain at the zero frequency and the inverse shifts hold for all sizes; coordinates are right for even sizes only (C49_odd, C49_refuted). (C49_refuted)
* **C50 Arguments are not modified.** Weights given as an array are modified in place (C50_array, C50_refuted). (C50_refuted)
* **C51 Local correlation is aligned with the image.** The window ends before the pixel (C51_shift_partial gives the exact offset, C51_not_own_pixel). (C51_refuted)
* **C53 Regions crossing the border are rejected.** Exact condition of the check in C53_check_iff; regions beyond the upper borders are accepted and give nan (C53_refuted); negative centres mean different pixels for cubes and spheres (C53_negative). (C53_refuted)
* **C56 Regions given in a call are used for that call.** Holds for calls passing all or none of the regions, and for the stored values after any history (C56_history); a partial set is overridden by the stored one (C56_refuted). (C56_refuted)
* **C57 SNR and CNR support colour images.** SNR in YUV mode with spherical or whole regions works; CNR with cubic, spherical or automatic regions and SNR with cubic regions or yuv=False always raise. (C57_cnr_refuted, C57_snr_refuted)
* **C59 Foreground and background thresholds partition the image.** Disjoint and covering above the minimum (C59_partial); the minimum pixels are in neither (C59_refuted). (C59_refuted)
* **C60 Interactive centre selection saves what is shown.** Proved for one panel over all event sequences with radii that leave room for a centre (C60_single_partial). Refuted for two panels (C60_two_refuted: module variables are shared), for the largest radius of the slider (C60_radius_refuted) and for SNR of 2D images (C60_snr_2d_refuted). (C60_two_refuted, C60_radius_refuted, C60_snr_2d_refuted)
* **C63 Batch results equal individual results.** Cached values are kept although the region or the shape of the reference changes (three refutations); otherwise batch and single results agree, including which batches fail (C63_individual_partial, C63_package_partial). (C63_region_refuted, C63_reference_region_refuted, C63_shape_refuted)
* **C66 Every metric can be used in a batch.** SNR never works, the same class twice gives one entry, chromatic metrics reject every colour image not 3 pixels wide; otherwise every metric gets its own entries (C66_own_entries_partial). (C66_snr_refuted, C66_same_name_refuted, C66_colour_refuted)
* **C67 3D visualisation accepts exactly the valid slices.** The accepted slices are exactly the valid ones (C67_shown_iff), but the index equal to the length raises IndexError instead of ValueError (C67_refuted). (C67_refuted)
* **C68 Image export shows one chosen slice.** The layout is proved completely (C68_layout). Equal indices for several axes are accepted and volumes of three slices are mixed to one (two refutations). (C68_equal_refuted, C68_three_slices_refuted)
* **C69 QMeasure converts every volume to 32 bit float.** float64 volumes are not converted (C69_double_refuted); strides are ignored by the native code (C69_layout_refuted, C69_view_refuted). Packed volumes of other types are handed over completely. The native calculation itself is not part of the repository. (C69_layout_refuted, C69_double_refuted, C69_view_refuted)
* **C70 Central crop script.** The crop function is proved (C70_crop). The script exchanges the first two sizes when loading and naming: proved for equal sizes (C70_script_partial), refuted for all sizes that differ enough (C70_refuted) and for smaller differences by a witness. (C70_refuted, C70_scrambled_refuted)
* **C71 Projection reduction.** Proved for all factors greater than one (C71_reduced); negative factors are accepted and reverse the order (C71_negative_refuted). (C71_negative_refuted)
* **C72 Stacked volumes can be loaded again.** Images are transposed: exact condition for single slices (C72_same_iff_partial); deeper images give files that cannot be loaded (C72_depth_refuted). (C72_transposed_refuted, C72_depth_refuted)
* **C73 Pair file generation.** Only the first three characters of modified names are compared: exact for stems of three characters, refuted for all longer stems (C73_refuted). (C73_refuted)
* **C74 Pair file round trip.** Names without quotes; the sniffed dialect does not undouble quotes, so every file with a quote in a name is read back wrongly (C74_quotes_refuted). Sniffer modelled for the header of pair files only. (C74_refuted, C74_quotes_refuted, C74_comma_refuted)
* **C76 Documented border modes are accepted.** Modes edge and symmetric raise RuntimeError (C76_refuted); C76_accepted_iff lists the accepted names. (C76_refuted)
* **C77 The window size is ignored with Gaussian weights.** win_size changes variance scaling and cropping (C77_refuted); the filter itself does not depend on it (C77_filter_partial). (C77_refuted)
* **C79 Colour images can be scored by every metric that offers chromatic.** VSI, GSM and MAD raise ValueError for every colour image without dim (C79_refuted). (C79_refuted)
* **C80 Ignored arguments are reported.** The value 0 is ignored silently (C80_refuted); C80_warning_iff is the exact condition. (C80_refuted)
* **C81 GSM does not depend on the orientation of the images.** Refuted for mirroring. Proved: turning both images by 180 degrees and inverting both leaves GSM unchanged, for every shape, constant and data range, over exact floating point arithmetic. (C81_refuted)
* **C82 Gradient kernels measure the direction they are named after.** 26 of 32 kernels; C82_actual states the response of the other six, C82_refuted that three of them violate the claim. (C82_refuted)
* **C84 MAD of identical images is zero.** Not a number for accepted images of at most two blocks (C84_small_image); identity otherwise; C84_whole_partial for the whole function including filters, for blocks of four strides. (C84_refuted)
* **C85 Thresholds determine the combination parameters, with the documented warnings.** The warning about ignored parameters is unconditional (C85_refuted); everything else holds. (C85_refuted)
* **C86 Block size one compares images without blocks.** MAD is zero for every pair of images with block size one (C86_block_size_one). (C86_refuted)
* **C88 Scoring does not leak memory.** One array per minstd call and three per getstatistics call stay alive (C88_leak). (C88_refuted)
* **C89 The automatic full region is the eroded one.** Refuted for every grayscale image with a detected region; there is no region for which the claim holds. (C89_refuted)
* **C90 Automatically found regions lie in the detected region.** Interior pixels only (C90_partial). (C90_refuted)
* **C91 A region selected interactively is the one scored.** Cubic regions only (C91_partial). (C91_refuted)
* **C92 Colour conversion of grey pixels.** Refuted for every grey pixel that is not black; C92_partial only shows that the coefficients themselves are right. (C92_refuted)
* **C93 Automatic centres need no centre.** ValueError for every image (C93_refuted); if some centre is passed it is ignored as documented (C93_partial). (C93_refuted)
* **C95 Every pair of a batch has its region.** An empty list of regions is accepted and every calculation fails with IndexError (C95_empty_refuted). (C95_empty_refuted)
* **C96 Regions of a batch are parts of the loaded images.** Without normalisation and for regions that are not three columns wide (C96_region_2d_partial, C96_region_3d_partial). (C96_normalized_refuted, C96_three_columns_refuted)
* **C97 Metadata files tell the parameters of each metric.** Values that take several lines (arrays) make the file ambiguous (C97_refuted); otherwise the text determines all entries. (C97_refuted)
* **C99 Lines mark the slices shown.** Non-negative indices only (C99_refuted). (C99_refuted)
* **C100 Marked regions are the scored regions.** Proved for volumes; in 2D the coordinates are exchanged and the view of the signal is mirrored (two refutations); drawing of SNR overlays not modelled. (C100_plane_refuted, C100_mirrored_refuted)
* **C101 All views of a 2D image have the same orientation.** Holds exactly for mirror symmetric images (C101_alike_iff_partial, C101_refuted). (C101_refuted)
* **C102 Centres of CNR can be shown.** TypeError for all arguments unless the undocumented region_type is passed (C102_refuted); with region_type they are shown for 2D images and volumes (C102_plane_partial, C102_shown_partial). (C102_refuted)
* **C105 write_to_csv runs as its usage says.** The fourth argument is always accessed (C105_optional_refuted); images/ is created only together with the output directory (C105_existing_refuted). (C105_optional_refuted, C105_existing_refuted)
* **C104 Reduced projections can be written to the current directory.** Refuted for every plain file name (C104_refuted). (C104_refuted)
* **C103 QMeasure histogram range covers the volume.** Exact condition (C103_covers_iff_partial); all volumes with values in [0,1) get the empty range 0 to 0 (C103_refuted). (C103_refuted, C103_overflow_refuted)
* **C106 Opening the interactive choice changes nothing.** Opening stores the starting values at once (C106_refuted); unchanged only if they were stored before (C106_stored_partial). (C106_refuted)
* **C107 Saved centres fit into the image.** Proved for one panel and radii that leave room (C107_inside_partial); refuted for the largest radius and for starting values. (C107_radius_refuted, C107_start_refuted)
* **C108 print_score prints the score or warns.** Proved for scored metrics and for ten classes without a score; MS-SSIM, VIFp and VSI print a line instead of warning (C108_unscored_refuted), and every metric raises TypeError after its missing score was exported (C108_exported_refuted). Rounding is a parameter. (C108_unscored_refuted, C108_exported_refuted)
* **C109 Printed and exported names agree.** Exact condition over all classes; chromatic RMSE, PSNR, FSIM and SNR print another name than they export (C109_refuted). (C109_refuted)
* **C111 A report writes what it was asked for.** Named directories proved (C111_batch_partial, C111_multiple_partial). Without directory nothing is saved (C111_none_refuted); before the calculation the results file is emptied (C111_before_refuted); a failing image keeps MultipleMetrics from writing anything (C111_multiple_refuted). (C111_none_refuted, C111_before_refuted, C111_multiple_refuted)
* **C112 Comparison images show what was scored.** Proved for batches without loading parameters and with compatible neighbours; refuted for identical neighbouring pairs with different regions (C112_refuted) and for MultipleMetrics (C112_multiple_refuted). (C112_refuted, C112_multiple_refuted)
* **C113 Saved visualizations show the image.** export_image always saves what was drawn (C113_export_partial). Visualizations call show before savefig: with backends that close figures an empty figure is saved (C113_refuted); exact condition in C113_saved_iff_partial. The behaviour of pyplot is trusted as modelled. (C113_refuted)
* **C114 Figures do not accumulate.** A report with n saved images leaves n figures open (C114_refuted) which are displayed by the next visualization (C114_shown_again_refuted). (C114_refuted, C114_shown_again_refuted, C114_visualize_refuted)
* **C115 visualize handles 2D images, colour images and volumes.** Volumes and 2D images as documented; colour images always raise (C115_colour_refuted), the warning is a RuntimeWarning (C115_category_refuted). (C115_category_refuted, C115_colour_refuted)
* **C116 Optional packages.** A missing name in an installed module raises AttributeError (C116_name_refuted); everything else as documented. (C116_name_refuted)
* **C117 Choosing centres outside of notebooks.** CNR.set_centers always raises ImportError outside of notebooks (C117_refuted), unless the undocumented region_type is passed (C117_shown_partial). (C117_refuted)
* **C118 Documented reductions of the piq metrics.** mean and sum hold; none raises RuntimeError for volumes of more than one slice (C118_refuted). (C118_refuted)
* **C119 Messages name the argument that is missing.** Exact condition in C119_dim_message_iff_partial; five metrics complain about im_slice instead of dim (C119_refuted). (C119_refuted)
* **C120 Contrast sensitivity follows the spatial frequency.** Square images proved; frequencies of both axes are scaled by the number of columns, so the weights of images that are not square are not exchanged with their axes (C120_refuted). Real arithmetic; the fall is proved from lambda*f >= 0.9 on, a frequency of 7.895 by default; the default peak 7.8909 is the rounded place of the maximum. (C120_refuted)
* **C121 write_to_mat converts every folder with a volume.** Proved if every visible entry holds a volume that can be normalized; the first other entry ends the script (C121_first_failure, C121_refuted). What load_data gives is a parameter of the entry; wildcards in the name of the directory are not covered. (C121_refuted)
* **C122 Statistics can be calculated for every image.** The number of bins is the largest number of the data type: integer images of 64 bits always fail and mix old and new statistics (C122_64bit, C122_refuted), those of 32 bits need 16 or 32 gigabytes (C122_32bit); other types proved. Only the edges of the histogram are counted. (C122_refuted)
* **C123 describe exports the statistics or warns.** Writing, naming, reading back and warnings proved; without calculated statistics the file holds the text "Not set. ..." instead of numbers and there is no warning (C123_refuted). (C123_refuted)
* **C124 SNR.visualize_centers shows the region asked for.** Boxes and balls inside of the image are drawn as asked for (C124_volume_partial, C124_plane_partial). A signal array always raises ValueError (C124_signal_refuted); after a full region was saved, boxes and balls saved later raise TypeError (C124_after_full_refuted); in 2D images the overlay is not mirrored but the image is (C124_mirrored_refuted). Missing: colour images, and that pyplot draws what it is given. (C124_signal_refuted, C124_after_full_refuted, C124_mirrored_refuted)
* **C125 The interactive choice of SNR can be opened again.** Saved boxes and balls are shown again (C125_reopened_partial). After full or original was saved, opening raises TypeError (C125_refuted); thresholds and iterations start from 0, 0 and 1 the second time (C125_thresholds_refuted); the type full stores the region computed last, also for another metric (C125_other_region_refuted). That a slider with the value None starts from 0 is trusted. (C125_refuted, C125_thresholds_refuted, C125_other_region_refuted)
* **C126 SNR.set_centers outside of notebooks.** Starting values are ignored outside of notebooks: a new metric raises ImportError whatever is given (C126_refuted); stored regions and those in vis_kwargs are shown (C126_shown_partial). (C126_refuted)
* **C129 GSM does not depend on which image is the reference.** Floating point images with different mean absolute gradients (C129_partial); also as computed in floating point (C129_rounded_partial); refuted for equal ones (C129_refuted) and for unsigned images (C129_unsigned_refuted). (C129_refuted, C129_unsigned_refuted)
* **C131 Log-Gabor filters are tuned to their wavelength and orientation.** Even sizes (C131_tuned_partial) and the bound for all sizes (C131_gain), the response to a wave (C131_wave); refuted for odd sizes (C131_refuted). (C131_refuted)
* **C133 Parameters left out of a dictionary argument of MAD get their defaults.** luminance_function is completed (C133_luminance_partial); csf_function given in part raises KeyError for all images (C133_csf, C133_refuted). (C133_refuted)
* **C135 Normalization in floating point arithmetic.** Range, order, distance and the unit range are proved (C135_range_and_order, C135_near, C135_bright_unit). The brightest pixel may become one less than the upper limit (C135_bright_partial says when not): float64 pixels 0 and 1.1 with 255 give 254 (C135_refuted), float32 pixels 0 and 259 with 65535 give 65534 (C135_integers_refuted), float16 pixels 0 and 11 with 255 give 254 (C135_half_refuted). The distance is at most one step, for float16 with 65535 at most 160. Overflow is modelled for float16, underflow is not; exponents of float32 and float64 are unbounded. (C135_refuted, C135_integers_refuted, C135_half_refuted)
* **C137 Flat regions have no signal to noise ratio, rounding included.** Holds if the sum needs at most 53 bits (C137_flat_partial: all 16 bit images). Three pixels of the value 0.1 have an SNR above 2^51 in every order of summation (C137_actual, C137_refuted). (C137_refuted)
* **C139 SSIM does not exceed 1 in floating point arithmetic.** Holds if no pixel exceeds the data range, for k_2 = 0.03 (C139_bounded_partial). Two images with pixels 3000 and 3000.25 and the data range 1 have an index above 2000 at a position (C139_actual, C139_refuted). (C139_refuted)
* **C140 Images are continued beyond the border as the name of the rule says.** The rules are proved for all lengths and positions (C140_rules). correlate_convolve_abs exchanges the names reflect and mirror (C140_exchanged, C140_refuted). (C140_refuted)
* **C142 The results of an object are those of one calculation.** A call that returns gives the results of a new object whatever was done before (C142_returned_partial). A call that raises leaves a mixture (C142_interrupted, C142_refuted). MultipleMetrics keeps the results of the last call that returned (C142_multiple). (C142_refuted)
* **C143 Returned results stay as they are.** Holds for MultipleMetrics (C143_multiple). BatchMetrics returns the same dictionary each time (C143_shared, C143_refuted); only repetitions of the same calculation leave it unchanged (C143_repeated_partial). (C143_refuted)
* **C144 Zero error only for identical images, as computed.** Identical images and symmetry hold without conditions (C144_identical, C144_symmetric). Zero only for identical images holds if differing pixels differ by at least 2^-74 (C144_only_identical_partial); smaller differences are lost in float32 (C144_refuted). Exact conditions: float32 images have RMSE 0 exactly if no difference exceeds 2^-75 (C144_single_zero_iff); one float64 pixel exactly if the square of the difference is at most 2^-1075 (C144_double_zero_iff). (C144_refuted)
* **C149 A batch finds its files in file_dir.** Holds for the images (C149_images). The file of the pairs is opened relative to the working directory, so the claim holds exactly if the path is absolute or file_dir is the working directory (C149_pairs_partial, C149_refuted). (C149_refuted)
* **C150 Scores lie in the ranges of the table in README.md.** PSNR is negative exactly if the RMSE exceeds the data range, CNR exactly if the region is darker than the background, SNR can be negative for images with negative values. GSM is not negative for similar gradients, but -1.04 for an edge and its inversion: the gradients are signed. (C150_psnr_refuted, C150_gsm_refuted, C150_cnr_refuted, C150_snr_refuted)
* **C151 Cropping does not change the SNR and CNR of regions in the crop.** Fails if the crop has three pixels in the last direction (taken for a colour image) and for volumes with fewer (C151_snr_refuted, C151_cnr_refuted); proved for all others. (C151_snr_refuted, C151_cnr_refuted)
* **C153 SNR and CNR of half precision images.** Refuted: np.std stores sums as float16, so the standard deviation of every region whose pixels add to more than about 65520 is infinite, and SNR and CNR are 0 (C153_overflow, C153_cnr_overflow, C153_refuted). C153_snr_partial bounds the error of the finite results with a mean of at least 1 and a variance of at least 1/1024 (before the error factor of the additions). C153_cnr_partial does so for CNR, in comparison with the means. (C153_refuted)
* **C154 Small changes of the images change the scores little.** Proved for RMSE, PSNR and SSIM. Fails for SNR of a flat region and CNR of a flat background, which are 0 while those of nearly flat ones are arbitrarily large (C154_refuted); proved for all other regions. (C154_refuted)
* **C155 Result files can be read back.** Reading back is proved for all texts. Use as pair file fails for names with quotes, since the sniffed dialect has no doubled quotes (C155_pairs_refuted); proved for all other names. (C155_pairs_refuted)
* **C156 Pair files written by hand.** Proved if the header has a blank after its delimiter or no row has one. Fails otherwise: skipinitialspace is guessed from the header alone, so blanks in rows become part of the names (C156_header_refuted). (C156_header_refuted)
* **C157 Pair files may have further columns in any order.** Proved for names of columns without delimiters, quotes and line breaks. Fails for files with semicolons or tabulators if the name of a further column contains a comma: the file is refused (C157_delimiter_refuted). (C157_delimiter_refuted)
* **C158 Statistics of an image mean what they are called.** All laws are proved. Skewness and kurtosis exist for integer images that are not constant if the sum of the pixels is below 10^15 (C158_defined_partial), but not for float32 and float16 images whose standard deviation is below 1e-6 or 1e-3 of the mean (C158_offset_refuted). Real arithmetic; where the statistics are stored is C21 and C122. (C158_offset_refuted)
* **C159 The histogram counts every pixel once.** Counts and edges are proved for all images. Different integer gray values have different bins if they span less than 255; the two largest of 256 gray values share a bin (C159_levels_refuted). For integer types the histogram is lost (C21). (C159_levels_refuted)
* **C161 The stronger the distortion, the worse the score.** RMSE and PSNR: all differences. SSIM: gain and brightness only (other differences: C161_ssim_refuted). GSM: brightness of float images, exact value. Real arithmetic. (C161_ssim_refuted)
* **C162 The two workflows of the user guide give the same images to a metric.** The first two sentences are proved for all inputs and parameters. Repeating the parameters: proved for 0-255 and for regions starting at 0 (C162_loaded_again_partial); false for 0-65535 (C162_normalized_again_refuted). Cropping before or while loading: proved without normalization, false with it (C162_crop_first_refuted). (C162_normalized_again_refuted, C162_crop_first_refuted)
* **C163 The format of the file does not matter.** Voxels, byte order and scaling are proved for all sizes and all types but 64 bit integers (which raw files do not have). False: pairs of different formats (C163_compare_refuted), normalization of 8 bit data (C163_normalize_refuted), time axis (C163_time_refuted). (C163_compare_refuted, C163_normalize_refuted, C163_time_refuted)
* **C164 The data of an mhd volume are read as its header describes them.** Proved for data in the usual byte order and 8 bit data; a header of at least one item is rejected. False for 16 bit data in the other byte order (C164_byte_order_refuted, for all volumes) and for shorter headers (C164_short_header_refuted). (C164_byte_order_refuted, C164_short_header_refuted)
* **C165 The version is the same everywhere.** Proved for the form that the formatter and the release tool write; false for single quotes and without blanks. (C165_single_quotes_refuted, C165_no_blanks_refuted)
* **C166 Requirement files list the declared dependencies.** Requirements of one line. False for a group called default (C166_default_refuted). (C166_default_refuted)
* **C167 Small changes of the images change the gradient similarity little.** Proved where one kernel is strictly strongest for each image, the strengths differ and the divisor vanishes nowhere. False otherwise: with default parameters a copy of an image with a flat part as close as one likes scores less than 0.6 (C167_refuted); equal strengths let the score jump by more than 1 (C167_tie_refuted). Rational arithmetic. (C167_refuted, C167_tie_refuted)
* **C169 Worse components never improve MAD.** Appearance index: always. Detection index: up to exp(1/beta_2) times the appearance index (about 2190 for the default parameters, C169_detection_partial); beyond it MAD can fall (C169_refuted). Real arithmetic. (C169_refuted)
* **C170 Keyword arguments of score are used or rejected.** Documented keywords are used unless the class gives them itself (C170_partial): data_range raises TypeError for every full-reference metric, as in the examples of six modules (C170_data_range_refuted). Nine classes reject wrong names (C170_unknown_partial); SSIM, UQI, MAD and the Q-measure drop them silently (C170_misspelled_refuted). A radius without centres is replaced by the remembered one (C170_region_refuted). Names only; signatures of piq trusted. (C170_data_range_refuted, C170_misspelled_refuted, C170_region_refuted)
* **C171 The examples of the documentation show the actual scores.** RMSE and PSNR: all shapes and gray values. SSIM and UQI are the luminance comparison, 1 for equal gray values (C171_ssim_partial), but for black and white neither the shown score 0.0 nor the printed 1.0 is true (C171_refuted). Real arithmetic; images of another shape raise the shown ValueError (C18). (C171_refuted)
* **C172 The notebooks run for every choice of metrics.** Without SNR the results have exactly the entries of the chosen metrics (C172_results_partial), and all keywords but one are read for volumes (C172_keywords_partial). As delivered the calculation raises TypeError because SNR is chosen (C172_snr_refuted); use_sample_covariance of SSIM is never read; GSM rejects its dictionary for 2D images; after resizing, the statistics cell raises AttributeError (C172_shapes_refuted). The type returned by skimage is trusted. (C172_snr_refuted, C172_ssim_refuted, C172_plane_refuted, C172_shapes_refuted)
* **C174 Keywords of calculate and report are used or rejected.** calculate: documented keywords are read, others rejected (C174_documented_partial, C174_unknown_partial) except two internal names of MultipleMetrics (C174_internal_refuted) and batches without pairs. report: MultipleMetrics hands the rest to matplotlib (C174_report_partial), BatchMetrics drops dpi, scaling_order and anything else (C174_batch_report_refuted). (C174_internal_refuted, C174_no_pairs_refuted, C174_batch_report_refuted)
* **C178 The score of a call does not depend on earlier calls.** Metrics with reference and the Q-measure keep nothing (C178_full). CNR and SNR are independent of earlier calls if no call gives loading keywords (C178_partial); a region of interest given once is used by all later calls (C178_region_refuted, C178_parts_refuted with numbers). (C178_region_refuted, C178_parts_refuted)
* **C179 Keyword arguments of constructors are used or rejected.** data_range, normalize, roi and, with reference, chromatic are read (C179_partial); batch, name of SNR and chromatic of metrics without reference are accepted and dropped (C179_dropped_refuted), as is every wrong name (C179_unknown_refuted). Only names are modelled. (C179_dropped_refuted, C179_unknown_refuted)
* **C180 The exponents of SSIM weight luminance, contrast and structure.** Real arithmetic, border handling without fill value. Weights that are not integers are truncated, so 0.5 acts as 0 (C180_refuted), although alpha, beta and gamma are documented as float. (C180_refuted)
* **C183 A greater data range is more forgiving.** PSNR is proved for all images. SSIM and GSM multiply luminance with a similarity of structure that can be negative, then a greater data range lowers the score. (C183_ssim_refuted, C183_gsm_refuted)
* **C184 Normalization does not change the contrast to noise ratio.** Exact arithmetic. Missing: integer output ranges (refuted), signed integer images. (C184_refuted)
* **C185 Pixels that are not a number do not go unnoticed.** Proved for RMSE, PSNR and SNR, and for the reference of GSM. SSIM takes nan for 1, GSM leaves it out, CNR does not look at the signal when the background is uniform. Missing: the other metrics. (C185_cnr_refuted, C185_ssim_refuted, C185_ssim_first_refuted, C185_ssim_raises_refuted, C185_gsm_refuted)
* **C186 Copied images are those of the pair file.** Missing: folders that exist and names that occur in both directories (refuted). (C186_same_name_refuted, C186_stale_refuted)
* **C187 Normalization does not make an image perfect.** Missing: uniform images and images with nan (refuted). (C187_refuted)
* **C188 Averaging images does not worsen the score.** Exact arithmetic. Proved for RMSE and PSNR; SSIM is refuted. (C188_ssim_refuted)
* **C189 Averaging scans does not lower SNR and CNR.** Exact arithmetic. Missing: averages with a flat region (refuted, the score is 0 there), colour images, automatic regions. (C189_snr_refuted)
* **C191 The bit depth of the normalization hardly matters for RMSE.** Exact arithmetic. Missing: integer images with overflow (refuted), signed and float16 images. (C191_refuted)
* **C192 Printed scores are the rounded scores.** Missing: half a unit exactly and agreement next to ties (refuted), scores with more than 15 digits before and after the point. (C192_refuted, C192_half_refuted)
* **C194 Accuracy of SSIM.** Missing: positions at which one window is nearly uniform and the other is not (refuted), pixels larger than the data range (C139). (C194_refuted)
* **C195 Infinite pixels do not go unnoticed.** Missing: SSIM, normalization, CNR with a uniform background and RMSE of identical images (refuted). The filters of SSIM on infinite values are abstracted to InfiniteSums. (C195_identical_refuted, C195_cnr_refuted, C195_ssim_refuted, C195_normalize_refuted, C195_normalized_refuted)
* **C196 A failing report does not destroy earlier files.** Missing: the file that is open while its content cannot be made (refuted for the results file before a calculation). (C196_refuted)
* **C197 Files are closed after use.** Missing: the header of mhd volumes (refuted). (C197_mhd_refuted, C197_many_refuted)
* **C198 RMSE and PSNR of integer images are reproducible.** Missing: 16 bit volumes with more than 2^21 pixels and 16 bit values in float32 (both refuted). (C198_order_refuted, C198_type_refuted)
* **C199 SSIM is 1 only for identical images, as computed.** Missing: similar images that are not identical (refuted). (C199_refuted)
* **C200 Metrics in lists, sets and dictionaries are the objects themselves.** Missing: metrics with equal or missing scores in list methods; sets and dictionary keys (both refuted). (C200_lists_refuted, C200_hash_refuted)
* **C202 UQI lies between -1 and 1 in floating point arithmetic.** Missing: windows with little contrast compared to the gray values (refuted: two 11 bit images and two 8 bit volumes with a UQI of -3.4e38). (C202_refuted, C202_volume_refuted)
* **C203 Accuracy of UQI in floating point arithmetic.** Missing: windows with little contrast compared to the gray values (refuted). (C203_refuted)
* **C204 SNR and CNR of integer images are reproducible.** Missing: regions whose number of pixels is not a power of two, or with more pixels (refuted for five pixels; all orders agree up to 2^-27). (C204_refuted)
* **C205 Normalization does not change which image is better.** Exact arithmetic. Missing: images whose scores differ by less than the shifts of the darkest and brightest gray values (refuted). (C205_refuted)
* **C206 Normalization does not change the signal to noise ratio.** Exact arithmetic, gray scale images. Missing: images whose darkest gray value is not 0 (refuted). (C206_refuted)
* **C207 Colour images scored with chromatic=False.** Proved: the bounds, and equality for images without colour and channels up to 255. False: RMSE 0 only for equal images (C207_refuted, C207_same_gray, C207_clipped). (C207_refuted)
* **C208 The border rule has no influence on SSIM.** Proved unless win_size is given together with Gaussian weights and is smaller than the Gaussian window. False there: C208_refuted. (C208_refuted)
* **C210 SNR and CNR do not depend on the orientation of the image.** Spheres: all turns. Cubes: transpositions, and flips with the centre at n - x. False for cubes flipped with their centre pixel, for regions beyond the border and for three columns. (C210_cubic_refuted, C210_border_refuted, C210_narrow_refuted)
* **C211 Exchanging bright and dark in both images does not change the scores.** RMSE, PSNR and CNR: proved. SSIM: proved for equally bright windows or without luminance, false otherwise. GSM: false. (C211_ssim_refuted, C211_gsm_refuted)
* **C212 RMSE covers the differences of the statistics.** Mean and standard deviation hold as stated; minimum, maximum and median only with the factor sqrt(n), which is attained (C212_refuted). (C212_refuted)
* **C213 Losses along a chain of processing steps.** RMSE and PSNR hold for chains of any length; false for SSIM, which is not a distance (C213_ssim_refuted). (C213_ssim_refuted)
* **C214 Regions found automatically turn with the image.** np.argmax takes the first of several equal maxima, so objects (or pixels) of the same depth are chosen by their place in memory: the mirror image of an image with two objects of the same size has another SNR. So have cubes, which extend one pixel further to the left than to the right. The radius and the region types full and original do not depend on the orientation. (C214_refuted, C214_cubic_refuted)
* **C215 The radius found grows with the object.** More iterations shrink the region of an object near the border of the image, down to nothing (radius 0, with which SNR and CNR raise), because the erosion treats pixels beyond the border as background. The other two parts hold without restriction. (C215_iterations_refuted)
* **C216 Automatic signal and background are different regions.** CNR with auto_center can compare a region with itself and return 0 without a warning; with iterations=0 it always does, whenever it returns a number. (C216_zero_refuted, C216_negative_refuted, C216_refuted)
* **C217 The argument experimental of GSM can be given for every image.** Code that passes experimental=False to all calls fails for 2D images and slices. With experimental=True dim must be given, but its value is neither used nor checked. (C217_dim_refuted, C217_slice_refuted, C217_plane_refuted)
* **C219 Thresholds select the share of pixels they name.** auto_center cannot be used for images in which the brightest material is uniform (or saturated) and fills more than a tenth of the image: the message is 'Image must be binary.', which names an internal image. Exact arithmetic. (C219_saturated_refuted)
* **C220 SSIM rejects window sizes that are not positive.** win_size=-3 compares only the last two pixels of every axis. The behaviour of uniform_filter of SciPy for sizes up to one and of crop of scikit-image for negative widths is an assumption about these libraries (recalled, their sources were not at hand). Exact arithmetic. (C220_corner_refuted, C220_exact_refuted)

Further surprises, proved on the way: `normalize_data` computes float16 images in float16, where an extent times 255 above 65504 is infinite (pixels 0 and 300 are enough), so C11 is refuted for them (C11_half_overflow, C11_half_refuted); `normalize=True` with `data_range=0` silently does nothing (C09_range_zero); lists of images always raise (C18_lists_raise); a window of one pixel passes all checks of SSIM and divides by zero (C32_window_one).
