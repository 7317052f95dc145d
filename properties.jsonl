{"id": "C01", "title": "Voxel order of raw and mhd volumes", "statement": "A volume loaded from a .raw file (or the data file of an .mhd header) with declared size X x Y x Z has array shape (X, Y, Z), and the value at index [x, y, z] is the file's item number x + X*(y + Y*z): x runs fastest in the file.", "quantifier": "all sizes X, Y, Z, all file contents, all in-range indices", "why_tests_cant": "The sizes and indices are unbounded and a transposition or mirroring error is invisible on cubes, symmetric data or constant data, which is what fixtures use.", "anchors": ["src/viqa/utils/loading.py:_load_binary 592-612", "src/viqa/utils/loading.py:load_raw 560", "src/viqa/utils/loading.py:load_mhd 470"]}
{"id": "C02", "title": "Data file size check", "statement": "Loading binary data succeeds exactly when the number of whole items in the file equals the product of the three declared dimensions; in every other case a ValueError is raised and no array is returned. No voxel of a successfully loaded volume is made up: every voxel comes from the file and every whole item of the file is used exactly once.", "quantifier": "all byte strings, item sizes 1, 2, 4, 8 and dimension triples", "why_tests_cant": "Needs all file lengths, including lengths that are not a multiple of the item size and empty files.", "anchors": ["src/viqa/utils/loading.py:_load_binary 594-606"]}
{"id": "C03", "title": "Round trip of a volume through a raw file", "statement": "Writing a volume of unsigned integers to a file item by item in x-fastest order, little endian, under a file name that states the size and bit depth, and loading that file gives back a volume with the same shape and the same value at every voxel.", "quantifier": "all volumes, all sizes, bit depths 8, 16 and 32", "why_tests_cant": "The round trip has to hold for every volume and every value of every bit depth, byte order errors are invisible for values below 256.", "anchors": ["src/viqa/utils/loading.py:_load_binary 592-612", "src/viqa/utils/loading.py:load_raw 474-561"]}
{"id": "C04", "title": "Size and bit depth are read back from the file name", "statement": "For every prefix without digits, every size and every documented bit depth, the file name prefix_XxYxZ_BITDEPTH.raw is parsed to exactly the size (X, Y, Z) and the documented data type; a file name without a size raises ValueError 'No dimension found' and one without a bit depth raises 'No bit depth found'.", "quantifier": "all prefixes, sizes and bit depth names", "why_tests_cant": "File names are unbounded strings; leftmost-match and greediness bugs show up only for particular digit counts.", "anchors": ["src/viqa/utils/loading.py:load_raw 524-556", "src/viqa/utils/loading.py:_parse_bitdepth 1024-1043"]}
{"id": "C05", "title": "Exactly the documented bit depths are accepted", "statement": "The bit depth names accepted in file names are exactly 8ubit, 8bit, 16ubit, 16bit, 32ubit, 32bit, 16fbit, 32fbit and 64fbit; every other string is rejected with ValueError 'Bit depth not supported'. Likewise the ElementType of an .mhd header is accepted exactly for the five documented names.", "quantifier": "all strings", "why_tests_cant": "The rejection part ranges over all strings.", "anchors": ["src/viqa/utils/loading.py:_parse_bitdepth 1024-1043", "src/viqa/utils/loading.py:load_mhd 450-468"]}
{"id": "C06", "title": "An mhd header is read independently of the order of its lines", "statement": "For an .mhd header consisting of 'key = value' lines with distinct keys and a final newline, the loaded data file, size and data type are the values given for ElementDataFile, DimSize and ElementType, and permuting the lines or adding lines with other keys does not change them.", "quantifier": "all headers with distinct keys", "why_tests_cant": "Ranges over all headers and all permutations of their lines.", "anchors": ["src/viqa/utils/loading.py:load_mhd 430-471"]}
{"id": "C07", "title": "An mhd header without a final newline is read like one with it", "statement": "Whether or not the last line of an .mhd header ends with a newline, the same volume is loaded.", "quantifier": "all headers", "why_tests_cant": "Fixtures contain a header produced by one tool; the text format allows both forms.", "anchors": ["src/viqa/utils/loading.py:load_mhd 434-440"]}
{"id": "C08", "title": "File type dispatch", "statement": "A path is loaded by the reader of its extension: .mhd, .raw, .nii, .gz (only if the name contains nii preceded by a character), .png, .jpg, .jpeg, .bmp, .tiff; every other extension, in particular any upper-case variant and a name without extension, raises ValueError 'File extension not supported'.", "quantifier": "all file names", "why_tests_cant": "Ranges over all strings, including names with several dots and leading dots.", "anchors": ["src/viqa/utils/loading.py:_load_data_from_disk 341-392"]}
{"id": "C09", "title": "Argument checks of load_data", "statement": "load_data raises before touching the image if batch is set, raises ValueError if normalize is set without data_range, warns exactly if data_range is given without normalize, rejects every input that is not a path, array, tensor or one-element list of arrays, and rejects every array whose number of dimensions is not 2 or 3. If none of these applies and neither normalization nor cropping fails, it succeeds.", "quantifier": "all inputs and parameter combinations", "why_tests_cant": "The parameter space is a product of types and flags, priority of the checks matters.", "anchors": ["src/viqa/utils/loading.py:load_data 687-755"]}
{"id": "C10", "title": "load_data without normalization and region of interest returns the image unchanged", "statement": "Given an array and normalize=False, roi=None, load_data returns an array with the same shape, data type and values. With both normalize and roi given the result is the crop of the normalized full image, so the value of a pixel does not depend on the region that is cropped.", "quantifier": "all arrays, all roi", "why_tests_cant": "Ranges over all images and regions.", "anchors": ["src/viqa/utils/loading.py:load_data 757-785"]}
{"id": "C11", "title": "Normalization maps the image range linearly onto the data range", "statement": "For a non-constant floating point image normalization to (0, hi) is the increasing linear map that sends the minimum to 0 and the maximum to hi: all results lie in [0, hi], the order of pixels is preserved, and scaling or shifting the input brightness by a positive factor or an offset gives the same result. For hi 255 and 65535 the result is the integer part of that value.", "quantifier": "all non-constant images with real valued pixels", "why_tests_cant": "Ranges over all images.", "anchors": ["src/viqa/utils/loading.py:normalize_data 853-883"]}
{"id": "C12", "title": "Normalizing a normalized image changes nothing", "statement": "Normalizing the result of a normalization to the same data range again returns the same image. (MultipleMetrics normalizes twice, BatchMetrics three times, and a metric constructed with normalize=True once more.)", "quantifier": "all images, data ranges 1, 255 and 65535", "why_tests_cant": "Depends on integer wrap-around and on object identity of Python integers, needs all pixel values.", "anchors": ["src/viqa/utils/loading.py:normalize_data 852-891", "src/viqa/multiple.py:_calc 669-711", "src/viqa/multiple.py:BatchMetrics.calculate 254-274"]}
{"id": "C13", "title": "Normalization of integer images follows the documented formula", "statement": "For an unsigned integer image the normalized pixel is the integer part of (p-min)*hi/(max-min), in particular the brightest pixel is mapped to hi and the order of pixels is preserved.", "quantifier": "all unsigned integer images of 8, 16 and 32 bit, data ranges 1, 255, 65535", "why_tests_cant": "The intermediate product wraps around for large differences only; needs all pixel values and bit widths.", "anchors": ["src/viqa/utils/loading.py:normalize_data 866-883"]}
{"id": "C14", "title": "Unsupported ranges and data types are rejected", "statement": "normalize_data raises ValueError for every image whose data type is neither integer nor floating, for every output range other than (0,1), (0,255) and (0,65535), and if automatic_data_range is False without data_range_input; the only exception is an integer image whose data type has exactly the requested range: it is returned unchanged and reported as already normalized. In all other cases the returned image has data type uint8, uint16 or float32.", "quantifier": "all images, ranges and flags", "why_tests_cant": "Ranges over all integer ranges.", "anchors": ["src/viqa/utils/loading.py:normalize_data 843-891"]}
{"id": "C15", "title": "Cropping returns exactly the requested region", "statement": "For a grey scale image or a volume (whose last axis does not have length 3, see C19) and a region that lies inside it and is smaller than it along every axis, crop_image returns an array of the requested size whose value at [i, j, k] is the original value at [x0+i, y0+j, z0+k].", "quantifier": "all images, all regions inside the image", "why_tests_cant": "Ranges over all regions and indices.", "anchors": ["src/viqa/utils/loading.py:crop_image 930-947"]}
{"id": "C16", "title": "Cropping either returns the requested region or raises", "statement": "Whatever integer ranges are given, crop_image never silently returns something other than the requested region.", "quantifier": "all images and all integer ranges, including negative, inverted and out-of-range ones", "why_tests_cant": "Slicing silently clips and wraps, equality of sizes short-circuits: only a quantification over all ranges covers it.", "anchors": ["src/viqa/utils/loading.py:crop_image 930-955"]}
{"id": "C17", "title": "A region may span the full extent of some axes", "statement": "A region inside the image is accepted even if it spans the full extent of one axis and is smaller along another; colour images can be cropped like grey scale images.", "quantifier": "all images and regions inside", "why_tests_cant": "Needs regions touching the extent in some but not all axes.", "anchors": ["src/viqa/utils/loading.py:crop_image 933-943"]}
{"id": "C18", "title": "Images handed to full-reference metrics are comparable", "statement": "If loading a pair of images for a full-reference metric succeeds, both results have the same shape and data type; a mismatch of data type or of shape raises ValueError, and with chromatic=True success implies that the last axis has length 3.", "quantifier": "all pairs of inputs and all parameters", "why_tests_cant": "Ranges over all pairs and parameter sets.", "anchors": ["src/viqa/utils/loading.py:_check_imgs 958-1011", "src/viqa/_metrics.py:FullReferenceMetricsInterface.load_images 111-136"]}
{"id": "C19", "title": "Grey scale data is never treated as colour", "statement": "Loading a pair of grey scale images or volumes with chromatic=False does not alter the pixel values.", "quantifier": "all shapes", "why_tests_cant": "The misinterpretation depends on the extent of the last axis only.", "anchors": ["src/viqa/utils/loading.py:_check_imgs 1001-1009"]}
{"id": "C20", "title": "Colour to grey conversion", "statement": "The grey value of an RGB pixel lies between its smallest and largest channel, equals the channel value for neutral pixels, is monotone in each channel, and is never above 255.", "quantifier": "all RGB pixels", "why_tests_cant": "Ranges over all channel values.", "anchors": ["src/viqa/utils/misc.py:_to_grayscale 32-37"]}
{"id": "C21", "title": "Image statistics describe the array they are attached to", "statement": "After calculate_statistics() every statistics attribute of the array is set, and whenever an array derived from it (slice, view, crop, arithmetic result) carries a statistic it is the statistic of that derived array.", "quantifier": "all histories of creating, slicing, computing statistics and arithmetic", "why_tests_cant": "Ranges over histories of operations.", "anchors": ["src/viqa/utils/loading.py:ImageArray 63-287"]}
{"id": "C22", "title": "Resizing only happens when needed", "statement": "If reference and modified image have the same shape the modified image is used unchanged; otherwise the image used has the shape and data type of the reference.", "quantifier": "all image pairs", "why_tests_cant": "Ranges over all shapes.", "anchors": ["src/viqa/utils/loading.py:_resize_image 1014-1021"]}
{"id": "C23", "title": "Constructor check of metrics", "statement": "Constructing a metric fails exactly if normalize is set and data_range is None or 0; otherwise the parameters contain data_range, normalize, and chromatic and roi with their defaults unless overridden, and score_val is None.", "quantifier": "all constructor arguments", "why_tests_cant": "Ranges over all values.", "anchors": ["src/viqa/_metrics.py:Metric.__init__ 27-38"]}
{"id": "C24", "title": "Comparison of metrics is comparison of scores", "statement": "For metrics that have been scored the six comparison operators agree with the order of the scores, between metrics as well as between a metric and a number: exactly one of <, ==, > holds, <= is the negation of >, and both are transitive, so sorting metrics is well defined.", "quantifier": "all pairs and triples of real scores", "why_tests_cant": "Order laws quantify over all triples.", "anchors": ["src/viqa/_metrics.py:Metric 66-100"]}
{"id": "C25", "title": "score_val is the result of the last successful scoring", "statement": "After any sequence of calls of score(), some of which raise, score_val is the value returned by the last call that returned, and None if there was none; no other metric instance is affected.", "quantifier": "all call sequences over any number of metric instances", "why_tests_cant": "Ranges over histories.", "anchors": ["src/viqa/fr_metrics/rmse.py:RMSE.score 84-117", "src/viqa/fr_metrics/psnr.py:PSNR.score 95-147"]}
{"id": "C26", "title": "Exporting results is repeatable", "statement": "Exporting the results of the same metrics twice writes the same file twice, and exporting does not change any metric. Every metric with a score has exactly one row, in the order of the metrics.", "quantifier": "all lists of metrics, scored or not", "why_tests_cant": "Depends on the mixture of scored and unscored metrics and on the history.", "anchors": ["src/viqa/utils/export.py:export_results 53-103"]}
{"id": "C27", "title": "Fusion is the weighted sum", "statement": "Fusing metrics with weights is the sum of score times weight; it is linear in the weights, invariant under a common reordering of metrics and weights, and raises ValueError if the numbers of metrics and weights differ.", "quantifier": "all lists of scores and weights", "why_tests_cant": "Ranges over all lists and permutations.", "anchors": ["src/viqa/fusion.py 31"]}
{"id": "C28", "title": "RMSE is a distance", "statement": "RMSE is non-negative, zero exactly for identical images, symmetric, satisfies the triangle inequality, is unchanged when the same constant is added to both images and scales with the absolute value of a common factor.", "quantifier": "all pairs and triples of images of equal shape with real valued pixels", "why_tests_cant": "Metric axioms quantify over all triples of images.", "anchors": ["src/viqa/fr_metrics/rmse.py:RMSE.score 84-117"]}
{"id": "C29", "title": "PSNR laws", "statement": "PSNR is infinite exactly for identical images, symmetric, equals 20 log10(data_range / RMSE) otherwise, strictly decreases when the RMSE grows, and is unchanged if both images and data_range are scaled by the same positive factor. Without data_range it raises ValueError.", "quantifier": "all image pairs and data ranges", "why_tests_cant": "Ranges over all images.", "anchors": ["src/viqa/fr_metrics/psnr.py:PSNR.score 95-147"]}
{"id": "C30", "title": "SSIM of identical images and symmetry", "statement": "The SSIM score of an image with itself is 1 and exchanging reference and modified image does not change the score, for every window, every admissible constant and every integer exponent.", "quantifier": "all images, windows, constants and exponents", "why_tests_cant": "Ranges over all images and parameters.", "anchors": ["src/viqa/fr_metrics/ssim.py:structural_similarity 200-421"]}
{"id": "C31", "title": "SSIM is bounded", "statement": "For all images, non-negative stabilizing constants and non-negative integer exponents the score lies in [-1, 1], unless a fill value other than zero is asked for (mode='constant', cval) together with a Gaussian window and a window size of its own, so that filled pixels enter the average.", "quantifier": "all images, windows and constants", "why_tests_cant": "Cauchy-Schwarz type bound over all images.", "anchors": ["src/viqa/fr_metrics/ssim.py:structural_similarity 345-421"]}
{"id": "C32", "title": "SSIM argument checks", "statement": "structural_similarity raises ValueError exactly for negative K1, K2 or sigma, a window larger than some image extent, or an even window; for all other arguments the averaged map is not empty.", "quantifier": "all arguments and image shapes", "why_tests_cant": "Ranges over all shapes and windows.", "anchors": ["src/viqa/fr_metrics/ssim.py:structural_similarity 306-343"]}
{"id": "C33", "title": "UQI is SSIM without stabilizing constants", "statement": "The UQI score is the structural similarity with both stabilizing constants zero, as documented.", "quantifier": "all image pairs", "why_tests_cant": "The deviation is small on natural images; only a symbolic comparison of the two formulas exposes it.", "anchors": ["src/viqa/fr_metrics/uqi.py:UQI.score 122-185", "src/viqa/fr_metrics/ssim.py:structural_similarity 306-318"]}
{"id": "C34", "title": "Slice selection of the 2D metrics", "statement": "MS-SSIM, VIF, FSIM, VSI, GSM and MAD given a volume, dim in {0,1,2} and an integer slice score exactly the 2D slice of both volumes at that index along that axis; an integer slice with any other dim raises ValueError, and a volume without dim and slice raises ValueError. For 2D images dim and slice have no influence on the score.", "quantifier": "all shapes, dim and slice values, all six metrics", "why_tests_cant": "Product of six implementations and the argument space.", "anchors": ["src/viqa/fr_metrics/msssim.py:score 111-235", "src/viqa/fr_metrics/vif.py", "src/viqa/fr_metrics/fsim.py", "src/viqa/fr_metrics/vsi.py", "src/viqa/fr_metrics/gsm.py:GSM.score 130-256", "src/viqa/fr_metrics/mad.py:MAD.score 127-247"]}
{"id": "C35", "title": "A full volume is scored slice by slice along dim", "statement": "Given a volume and dim without a slice, the score is the mean over all slices along axis dim.", "quantifier": "all volumes and dim values", "why_tests_cant": "An implementation that ignores dim agrees on every symmetric or isotropic fixture.", "anchors": ["src/viqa/utils/misc.py:_check_chromatic 420-439", "src/viqa/fr_metrics/mad.py:most_apparent_distortion_3d 268-338", "src/viqa/fr_metrics/gsm.py:gradient_similarity_3d 277-358"]}
{"id": "C36", "title": "GSM of identical images is one", "statement": "The gradient similarity of an image with itself is 1 whenever the image is not flat; for a flat image it is not a number.", "quantifier": "all real valued images", "why_tests_cant": "Ranges over all images.", "anchors": ["src/viqa/fr_metrics/gsm.py:gradient_similarity 361-441"]}
{"id": "C37", "title": "GSM luminance term depends on the distance of the pixels", "statement": "The luminance similarity of two pixels is 1 minus the squared relative difference; it is symmetric and decreases with the difference, for every data type.", "quantifier": "all pixel values of all data types", "why_tests_cant": "Unsigned wrap-around depends on the sign of each pixel difference.", "anchors": ["src/viqa/fr_metrics/gsm.py:gradient_similarity 425-430"]}
{"id": "C38", "title": "Gradient kernels ignore brightness", "statement": "Every gradient kernel sums to zero, so the filter response of every kernel is zero on a constant image and is unchanged when a constant is added to the image.", "quantifier": "all kernels, all images, all positions", "why_tests_cant": "Consequence for all images; the kernels are built by chains of rotations.", "anchors": ["src/viqa/kernels.py 1-416"]}
{"id": "C39", "title": "MAD interpolates between its two components", "statement": "The combined index lies between the detection component and the appearance component, equals them if they agree, and is zero if both are zero, for all non-negative components and weights.", "quantifier": "all non-negative real components and parameters", "why_tests_cant": "Real powers; ranges over all reals.", "anchors": ["src/viqa/fr_metrics/mad.py:most_apparent_distortion 526-534"]}
{"id": "C40", "title": "MAD can be computed for every image size", "statement": "MAD assigns every block statistic to the position of the block it was computed from, without an index error, for every image at least as large as the block.", "quantifier": "all image sizes, block sizes and overlaps", "why_tests_cant": "The mismatch depends on the residues of the image size modulo the stride.", "anchors": ["src/viqa/fr_metrics/mad.py:_high_quality 634-654", "src/viqa/utils/misc.py:_extract_blocks 169-192"]}
{"id": "C41", "title": "The C extension reads and writes inside its buffers", "statement": "Computing local statistics of an image never accesses memory outside the image and the output arrays.", "quantifier": "all image sizes, block sizes and strides", "why_tests_cant": "Memory safety for all sizes; square test images hide an exchange of rows and columns.", "anchors": ["src/viqa/fr_metrics/stat_utils/statisticsmodule.c:minstd 52-140", "src/viqa/fr_metrics/stat_utils/statisticsmodule.c:getstatistics 142-230"]}
{"id": "C42", "title": "No uninitialized value enters the appearance index", "statement": "Every entry of the statistics maps that is used after the border of width block size is removed was written by the C extension.", "quantifier": "all image sizes, block sizes and strides", "why_tests_cant": "Uninitialized memory often contains zeros in tests.", "anchors": ["src/viqa/fr_metrics/stat_utils/statisticsmodule.c", "src/viqa/fr_metrics/mad.py:_low_quality 768-805"]}
{"id": "C43", "title": "The minimum standard deviation is a minimum over the neighbourhood", "statement": "The value minstd reports for a block is at most the standard deviation of every block starting in the quarter neighbourhood it is documented to search.", "quantifier": "all images and block positions", "why_tests_cant": "Needs all positions; only the first blocks are affected by the search.", "anchors": ["src/viqa/fr_metrics/stat_utils/statisticsmodule.c:minstd 100-135"]}
{"id": "C44", "title": "The C extension sees the pixels of the array it is given", "statement": "For every two-dimensional double array, the value the C extension uses for row i, column j is the array's element [i, j].", "quantifier": "all arrays, including views with strides", "why_tests_cant": "Depends on the memory layout of intermediate arrays, invisible at the Python level.", "anchors": ["src/viqa/fr_metrics/stat_utils/statisticsmodule.c:pymatrix_to_Carrayptrs 238-252", "src/viqa/fr_metrics/mad.py:_high_quality 609-642"]}
{"id": "C45", "title": "MAD argument checks", "statement": "most_apparent_distortion raises ValueError exactly for a block larger than the image, a non-positive block size or an overlap outside [0, 1); for every accepted argument the stride lies between 1 and the block size.", "quantifier": "all image shapes, block sizes and overlaps", "why_tests_cant": "Ranges over all arguments.", "anchors": ["src/viqa/fr_metrics/mad.py:most_apparent_distortion 497-508"]}
{"id": "C46", "title": "Concurrent MAD computations do not influence each other", "statement": "Two MAD computations running in different threads give the results they give when run alone.", "quantifier": "all interleavings of two computations", "why_tests_cant": "Ranges over schedules.", "anchors": ["src/viqa/fr_metrics/mad.py module globals M, N, BLOCK_SIZE, STRIDE"]}
{"id": "C47", "title": "Block extraction", "statement": "The blocks of an image are exactly its square sub-images starting at multiples of the stride that fit into the image, in row-major order.", "quantifier": "all images, block sizes and strides", "why_tests_cant": "Ranges over all sizes.", "anchors": ["src/viqa/utils/misc.py:_extract_blocks 169-192"]}
{"id": "C48", "title": "Integer and float images get the same lightness", "statement": "The lightness of an integer image, looked up in a table, equals the lightness formula applied to the same values as floats, for all pixel values in [0, data_range]; larger values raise IndexError.", "quantifier": "all pixel values and parameters", "why_tests_cant": "Ranges over all values.", "anchors": ["src/viqa/fr_metrics/mad.py:_pixel_to_lightness 808-846"]}
{"id": "C49", "title": "Frequency filters are centred on the zero frequency", "statement": "The filter gain of zero is applied to the zero frequency for every image size, and shifting to the centre and back is the identity.", "quantifier": "all sizes, even and odd", "why_tests_cant": "Odd sizes differ from even ones.", "anchors": ["src/viqa/utils/misc.py:gabor_convolve 210-417", "src/viqa/utils/misc.py:_fft,_ifft 195-202"]}
{"id": "C50", "title": "Arguments are not modified", "statement": "Calling score does not modify the arrays and lists passed as arguments.", "quantifier": "all argument types", "why_tests_cant": "Aliasing depends on list versus array arguments.", "anchors": ["src/viqa/fr_metrics/mad.py:_low_quality 742-745"]}
{"id": "C51", "title": "Local correlation is aligned with the image", "statement": "The value of correlate_convolve_abs at a pixel is computed from the window centred at that pixel.", "quantifier": "all images, kernels and positions", "why_tests_cant": "A constant offset is invisible on periodic or constant images.", "anchors": ["src/viqa/utils/misc.py:correlate_convolve_abs 62-166"]}
{"id": "C52", "title": "Cubic and spherical regions", "statement": "A cubic region of radius r selects exactly the pixels with c-r <= index < c+r in every axis, a spherical region exactly those at distance at most r from the centre; inside the image the cubic region has (2r)^d pixels.", "quantifier": "all image shapes, all radii and all centres whose coordinates are at least the radius", "why_tests_cant": "Ranges over all sizes.", "anchors": ["src/viqa/utils/misc.py:_to_cubic 615-639", "src/viqa/utils/misc.py:_to_spherical 587-612"]}
{"id": "C53", "title": "Regions crossing the border are rejected", "statement": "A region of CNR or SNR that does not lie inside the image raises ValueError.", "quantifier": "all centres, radii and shapes", "why_tests_cant": "Needs regions crossing each of the borders, and negative centres.", "anchors": ["src/viqa/utils/misc.py:_check_border_too_close 442-449"]}
{"id": "C54", "title": "CNR laws", "statement": "For given centres CNR depends only on the pixels of the two regions, is unchanged by brightness offset and positive contrast scaling (with automatic centres as well), changes sign under inversion, and is zero if the background region is flat or both regions have the same mean.", "quantifier": "all images and regions", "why_tests_cant": "Ranges over all images.", "anchors": ["src/viqa/nr_metrics/cnr.py:contrast_to_noise_ratio 678-842"]}
{"id": "C55", "title": "SNR laws", "statement": "SNR is unchanged by positive contrast scaling. For a grayscale image and a given centre it depends only on the pixels of the region and is zero if the region is flat.", "quantifier": "all images and regions", "why_tests_cant": "Ranges over all images.", "anchors": ["src/viqa/nr_metrics/snr.py:signal_to_noise_ratio 862-1124"]}
{"id": "C56", "title": "Regions given in a call are used for that call", "statement": "The centres and the radius passed to CNR.score or SNR.score are the ones used; omitted ones are taken from the metric.", "quantifier": "all subsets of the arguments and all histories of calls", "why_tests_cant": "Subsets of keyword arguments and histories.", "anchors": ["src/viqa/nr_metrics/cnr.py:CNR.score 106-142", "src/viqa/nr_metrics/snr.py:SNR.score 110-148"]}
{"id": "C57", "title": "SNR and CNR support colour images", "statement": "For a colour image SNR and CNR with every documented region type return scores.", "quantifier": "all colour images, regions and region types", "why_tests_cant": "Combination of branches; needs all.", "anchors": ["src/viqa/nr_metrics/snr.py:signal_to_noise_ratio", "src/viqa/nr_metrics/cnr.py:contrast_to_noise_ratio", "src/viqa/utils/misc.py:_to_cubic 615-639"]}
{"id": "C58", "title": "Automatic centres are valid", "statement": "A centre and radius found automatically in an image with a non-empty eroded region lie inside the image with a distance of at least the radius from every border, and all pixels closer to the centre than the radius belong to the region.", "quantifier": "all binary images", "why_tests_cant": "Ranges over all images.", "anchors": ["src/viqa/utils/misc.py:find_largest_region 493-584"]}
{"id": "C59", "title": "Foreground and background thresholds partition the image", "statement": "The automatically determined foreground and background are disjoint, and together contain every pixel.", "quantifier": "all images", "why_tests_cant": "Ties and the minimum value.", "anchors": ["src/viqa/utils/misc.py:_get_binary 452-490"]}
{"id": "C60", "title": "Interactive centre selection saves what is shown", "statement": "Pressing save in the widget of a metric stores the values currently shown in that widget in that metric.", "quantifier": "all sequences of events in any number of open widgets", "why_tests_cant": "Ranges over event histories.", "anchors": ["src/viqa/nr_metrics/cnr.py:CNR.set_centers 274-675", "src/viqa/nr_metrics/snr.py:SNR.set_centers 313-859"]}
{"id": "C61", "title": "Constructor checks of the batch classes", "statement": "MultipleMetrics and BatchMetrics are created exactly if the numbers of metrics and parameter sets agree, all metrics are metrics and all parameter sets are dictionaries (and for BatchMetrics the number of regions, if given and non-empty, equals the number of pairs).", "quantifier": "all arguments", "why_tests_cant": "Ranges over all lists.", "anchors": ["src/viqa/multiple.py:_MultipleInterface.__init__ 68-79", "src/viqa/multiple.py:BatchMetrics.__init__ 201-213"]}
{"id": "C62", "title": "Batch results are complete", "statement": "After BatchMetrics.calculate returns, there is exactly one result per pair, under the keys '0', '1', ... in the order of the pairs.", "quantifier": "all lists of pairs", "why_tests_cant": "Ranges over all pair lists including repeated pairs.", "anchors": ["src/viqa/multiple.py:BatchMetrics.calculate 215-295"]}
{"id": "C63", "title": "Batch results equal individual results", "statement": "The result of every pair in a batch equals the result of calculating the same metrics for that pair alone with the same region of interest.", "quantifier": "all pair lists, all regions, all metrics", "why_tests_cant": "The caching depends on the order of pairs and the history.", "anchors": ["src/viqa/multiple.py:BatchMetrics.calculate 230-295", "src/viqa/multiple.py:_calc 669-711"]}
{"id": "C64", "title": "Images are loaded only when they change", "statement": "While processing a batch the reference image is read from disk once per maximal run of pairs with the same reference, likewise for the modified image; nothing is read for a pair identical to its predecessor.", "quantifier": "all pair lists", "why_tests_cant": "Ranges over all sequences.", "anchors": ["src/viqa/multiple.py:BatchMetrics.calculate 235-275"]}
{"id": "C65", "title": "Rows of the batch result file match its header", "statement": "In the exported file every row has the pair number, the two file names and then the values of the columns named in the header, in that order.", "quantifier": "all batches", "why_tests_cant": "Depends on equal key order of every result.", "anchors": ["src/viqa/multiple.py:BatchMetrics.export_results 379-416"]}
{"id": "C66", "title": "Every metric can be used in a batch", "statement": "Every metric class of the package can be used in MultipleMetrics and BatchMetrics, and every metric contributes its own entry to the results.", "quantifier": "all lists of metrics", "why_tests_cant": "Combination of classes and names, including the same class twice.", "anchors": ["src/viqa/multiple.py:_calc 669-711", "src/viqa/nr_metrics/snr.py:SNR.__init__ 104-108"]}
{"id": "C67", "title": "3D visualisation accepts exactly the valid slices", "statement": "visualize_3d accepts slice indices exactly if they are valid indices of the image; otherwise it raises ValueError.", "quantifier": "all shapes and indices", "why_tests_cant": "Boundary values for all shapes.", "anchors": ["src/viqa/utils/visualization.py:visualize_3d 639-716"]}
{"id": "C68", "title": "Image export shows one chosen slice", "statement": "export_image of volumes requires exactly one of x, y, z and shows that slice; every metric value is placed at its own position and each column holds at most four full-reference values.", "quantifier": "all index combinations and numbers of metrics", "why_tests_cant": "Ranges over all numbers of metrics and indices.", "anchors": ["src/viqa/utils/export.py:export_image 152-318"]}
{"id": "C69", "title": "QMeasure converts every volume to 32 bit float", "statement": "The volume handed to the native code has the data type and memory layout the native code assumes.", "quantifier": "all volumes", "why_tests_cant": "Depends on data type and strides.", "anchors": ["src/viqa/nr_metrics/qmeasure.py 92-172", "src/viqa/utils/misc.py:_to_float 53-59"]}
{"id": "C70", "title": "Central crop script", "statement": "The crop script keeps the central part of the volume: the result has an even extent along each axis of at most size/factor and is centred, for every factor greater than one.", "quantifier": "all sizes and factors", "why_tests_cant": "Ranges over all sizes.", "anchors": ["src/scripts/crop_image.py"]}
{"id": "C71", "title": "Projection reduction", "statement": "Reducing projections by a factor keeps every factor-th slice starting with the first: the number of slices is the ceiling of n/factor and slice i of the result is slice i*factor of the input.", "quantifier": "all stacks and factors", "why_tests_cant": "Ranges over all sizes.", "anchors": ["src/scripts/reduce_projections.py"]}
{"id": "C72", "title": "Stacked volumes can be loaded again", "statement": "A stack of images written by the combine script is loaded by load_raw with the same size and content.", "quantifier": "all image sizes and stack heights", "why_tests_cant": "Square images hide exchanged axes.", "anchors": ["src/scripts/combine_stack.py"]}
{"id": "C73", "title": "Pair file generation", "statement": "The pair file lists exactly the pairs of reference and modified images whose names belong together, each once.", "quantifier": "all directory contents", "why_tests_cant": "Ranges over all name lists.", "anchors": ["src/scripts/write_to_csv.py"]}
{"id": "C74", "title": "Pair file round trip", "statement": "A pair file written with a header and rows of names is read back as the same list of pairs, whatever characters the names contain.", "quantifier": "all names", "why_tests_cant": "Quoting of delimiters, quotes and line breaks.", "anchors": ["src/viqa/multiple.py:_read_pairs 653-666", "src/scripts/write_to_csv.py"]}
{"id": "C75", "title": "SSIM is 1 only for identical images", "statement": "With positive stabilizing constants, integer exponents of at least one and a window that is not set together with Gaussian weights, the SSIM score of two images of equal shape is 1 exactly if the images are identical.", "quantifier": "all images of all shapes and dimensions, windows, constants, exponents, border modes", "why_tests_cant": "Follows from an inequality over all images; a test sees finitely many pairs.", "anchors": ["src/viqa/fr_metrics/ssim.py:structural_similarity 200-421"]}
{"id": "C76", "title": "Documented border modes are accepted", "statement": "structural_similarity accepts the border modes named in its documentation: constant, edge, symmetric, reflect, wrap.", "quantifier": "all documented modes and all valid further arguments", "why_tests_cant": "Every mode with every other argument.", "anchors": ["src/viqa/fr_metrics/ssim.py:structural_similarity 244-252, 345-353"]}
{"id": "C77", "title": "The window size is ignored with Gaussian weights", "statement": "If gaussian_weights is True, the argument win_size has no influence on the score, as documented.", "quantifier": "all images and window sizes", "why_tests_cant": "All window sizes.", "anchors": ["src/viqa/fr_metrics/ssim.py:structural_similarity 219-222, 321-328, 369-371, 416"]}
{"id": "C78", "title": "Colour SSIM is the mean of the weighted channel scores", "statement": "For colour images SSIM requires weights (ValueError without), the score is the mean of weight times channel score, identical images score the mean of the weights, and a number of weights different from one and from the number of channels raises ValueError.", "quantifier": "all colour images and weights", "why_tests_cant": "All weights and numbers of channels.", "anchors": ["src/viqa/fr_metrics/ssim.py:SSIM.score 159-179"]}
{"id": "C79", "title": "Colour images can be scored by every metric that offers chromatic", "statement": "MS-SSIM, VIF, FSIM, VSI, GSM and MAD accept chromatic=True, which is documented as the images being colour images; a pair of colour images is then scored without further arguments, from its three channels.", "quantifier": "all colour images, six metrics", "why_tests_cant": "Six implementations; colour is recognised differently in each.", "anchors": ["src/viqa/fr_metrics/vsi.py:score 187-278", "src/viqa/fr_metrics/gsm.py:score 192-256", "src/viqa/fr_metrics/mad.py:score 178-247", "src/viqa/fr_metrics/fsim.py:score 187-283"]}
{"id": "C80", "title": "Ignored arguments are reported", "statement": "When dim or im_slice is given for 2D images, a RuntimeWarning says that it is ignored.", "quantifier": "all values of dim and im_slice", "why_tests_cant": "The truth value test misses one value among all integers.", "anchors": ["src/viqa/fr_metrics/msssim.py:score 263-267", "src/viqa/fr_metrics/gsm.py:score 243-246"]}
{"id": "C81", "title": "GSM does not depend on the orientation of the images", "statement": "Mirroring both images leaves the gradient similarity unchanged.", "quantifier": "all pairs of images", "why_tests_cant": "A test sees finitely many images; only images with one-sided gradients show the effect.", "anchors": ["src/viqa/fr_metrics/gsm.py:gradient_similarity 426-436"]}
{"id": "C82", "title": "Gradient kernels measure the direction they are named after", "statement": "Away from the border, the response of a gradient kernel to a linear brightness ramp depends on the slopes along exactly the axes in the kernel's name, with equal weight (up to sign).", "quantifier": "all kernels, all ramps, all image sizes, all interior positions", "why_tests_cant": "Consequence for all ramps; a sign error in a 5x5 table is invisible in scores.", "anchors": ["src/viqa/kernels.py 1-416"]}
{"id": "C83", "title": "GSM is at most one", "statement": "For floating point images that differ by at most the data range, a non-negative constant c, a weight p in [0, 1] and images with at least one positive gradient, the gradient similarity is at most 1.", "quantifier": "all images and parameters", "why_tests_cant": "Ranges over all images.", "anchors": ["src/viqa/fr_metrics/gsm.py:gradient_similarity 361-441"]}
{"id": "C84", "title": "MAD of identical images is zero", "statement": "For every image and block size accepted by most_apparent_distortion, the index exists, and the index of an image with itself is zero.", "quantifier": "all image sizes and block sizes that pass the argument checks", "why_tests_cant": "Depends on the relation of image size and block size; a small accepted image has no pixels left.", "anchors": ["src/viqa/fr_metrics/mad.py:_high_quality 694-702", "src/viqa/fr_metrics/mad.py:_low_quality 800-805"]}
{"id": "C85", "title": "Thresholds determine the combination parameters, with the documented warnings", "statement": "Two thresholds determine beta_1 and beta_2 (the documented thresholds give the defaults); a warning is issued exactly if one threshold is given without the other, or if thresholds and beta_1 or beta_2 are given together.", "quantifier": "all threshold and parameter values", "why_tests_cant": "All combinations of given and omitted values.", "anchors": ["src/viqa/fr_metrics/mad.py:most_apparent_distortion 436-462, 510-524"]}
{"id": "C86", "title": "Block size one compares images without blocks", "statement": "block_size=1, documented as no blocks, gives an index that detects differences between images.", "quantifier": "all pairs of images", "why_tests_cant": "The index is a plausible number (zero) for every input.", "anchors": ["src/viqa/fr_metrics/mad.py:most_apparent_distortion 363-365", "src/viqa/fr_metrics/mad.py:_high_quality 637-688"]}
{"id": "C87", "title": "The visibility mask is finite, non-negative and monotone", "statement": "At every pixel the contrast mask of MAD is a finite non-negative number, zero where the error image is constant, and does not decrease when the local deviation of the error grows, for every local contrast including zero and undefined ones.", "quantifier": "all local statistics, including infinities and nan, and all positive scales", "why_tests_cant": "Logarithms of zero and of undefined contrasts; all cases of two thresholds.", "anchors": ["src/viqa/fr_metrics/mad.py:_high_quality 656-688"]}
{"id": "C88", "title": "Scoring does not leak memory", "statement": "After the results of minstd and getstatistics are dropped, no array allocated by the calls stays alive.", "quantifier": "all sequences of calls", "why_tests_cant": "Reference counts are invisible to value based tests.", "anchors": ["src/viqa/fr_metrics/stat_utils/statisticsmodule.c:minstd 70-75, 133-139", "src/viqa/fr_metrics/stat_utils/statisticsmodule.c:getstatistics 161-164, 222-229"]}
{"id": "C89", "title": "The automatic full region is the eroded one", "statement": "With auto_center=True and region_type='full', SNR is calculated over the region documented for find_largest_region: cleaned and then eroded twice.", "quantifier": "all grayscale images in which a region is found", "why_tests_cant": "Both regions give plausible numbers; the difference is which array of a masked array is taken as mask.", "anchors": ["src/viqa/nr_metrics/snr.py:signal_to_noise_ratio 1007-1018", "src/viqa/utils/misc.py:find_largest_region 576-578"]}
{"id": "C90", "title": "Automatically found regions lie in the detected region", "statement": "All pixels of the cubic or spherical region around an automatically found centre belong to the detected region.", "quantifier": "all binary images", "why_tests_cant": "Ranges over all images; sizes at which the distance is an integer.", "anchors": ["src/viqa/utils/misc.py:find_largest_region 566-575", "src/viqa/utils/misc.py:_to_spherical 587-612", "src/viqa/utils/misc.py:_to_cubic 615-639"]}
{"id": "C91", "title": "A region selected interactively is the one scored", "statement": "After a region of any type is saved with the widget of SNR, score without arguments gives the SNR of that region.", "quantifier": "all images, regions and region types", "why_tests_cant": "Interplay of the widget, the stored parameters and the arguments passed on.", "anchors": ["src/viqa/nr_metrics/snr.py:_save_values 407-448", "src/viqa/nr_metrics/snr.py:SNR.score 110-148"]}
{"id": "C92", "title": "Colour conversion of grey pixels", "statement": "The conversion to YUV used by SNR maps a grey pixel to its grey value as luminance and to zero chrominance.", "quantifier": "all images and all grey values", "why_tests_cant": "Needs the conversion for all values; scores do not reveal it.", "anchors": ["src/viqa/utils/misc.py:_rgb_to_yuv 40-50"]}
{"id": "C93", "title": "Automatic centres need no centre", "statement": "With auto_center=True score works without centre and radius, and the result does not depend on them.", "quantifier": "all images and all stored and passed arguments", "why_tests_cant": "Combination of arguments and state.", "anchors": ["src/viqa/nr_metrics/snr.py:SNR.score 135-142", "src/viqa/nr_metrics/cnr.py:CNR.score 126-138"]}
{"id": "C94", "title": "CNR of a whole image is zero", "statement": "With region_type 'full' or 'original' and given centres, signal and background are the same pixels, and CNR is zero whenever it returns.", "quantifier": "all images, centres and radii", "why_tests_cant": "Ranges over all images.", "anchors": ["src/viqa/nr_metrics/cnr.py:contrast_to_noise_ratio 822-842"]}
{"id": "C95", "title": "Every pair of a batch has its region", "statement": "A BatchMetrics object that could be created finds a region, or no region, for every pair when it is calculated.", "quantifier": "all numbers of pairs and lists of regions", "why_tests_cant": "Combination of the checks on creation and the later access.", "anchors": ["src/viqa/multiple.py:BatchMetrics.__init__ 207-213", "src/viqa/multiple.py:BatchMetrics.calculate 276-277"]}
{"id": "C96", "title": "Regions of a batch are parts of the loaded images", "statement": "If a region is given for a batch, the metrics receive the pixels of the loaded (normalised) images inside of the region, unchanged.", "quantifier": "all images, regions and loading arguments", "why_tests_cant": "The result is a plausible image of the right size.", "anchors": ["src/viqa/multiple.py:_calc 669-684", "src/viqa/utils/loading.py:_check_imgs 958-1011"]}
{"id": "C97", "title": "Metadata files tell the parameters of each metric", "statement": "export_metadata writes for every metric, in order, its name, data range and its own parameters, so that the text determines them; with fewer sets of parameters than metrics it raises IndexError.", "quantifier": "all lists of metrics and parameters", "why_tests_cant": "Injectivity of a text format over all names and values.", "anchors": ["src/viqa/utils/export.py:export_metadata 106-149"]}
{"id": "C98", "title": "Views show voxels at their coordinates", "statement": "In the three views of visualize_3d the voxel (x, y, z) appears at the coordinates named on the axes of the view.", "quantifier": "all volumes, slices and voxels", "why_tests_cant": "Correct orientation under slicing, reversing and rotating for all shapes.", "anchors": ["src/viqa/utils/visualization.py:visualize_3d 683-712"]}
{"id": "C99", "title": "Lines mark the slices shown", "statement": "The lines drawn in each view of visualize_3d lie at the slices shown in the other two views.", "quantifier": "all volumes and valid slices", "why_tests_cant": "Depends on the indices for all shapes.", "anchors": ["src/viqa/utils/visualization.py:visualize_3d 683-712"]}
{"id": "C100", "title": "Marked regions are the scored regions", "statement": "The square or circle drawn for a region surrounds exactly the shown pixels that belong to the region used for the score.", "quantifier": "all images, centres, radii and kinds of regions", "why_tests_cant": "Relates coordinates of drawings and of scores.", "anchors": ["src/viqa/utils/visualization.py:_visualize_cnr_2d 43-121", "src/viqa/utils/visualization.py:_visualize_cnr_3d 124-339", "src/viqa/utils/visualization.py:_visualize_snr_2d 342-411", "src/viqa/utils/visualization.py:_visualize_snr_3d 414-573"]}
{"id": "C101", "title": "All views of a 2D image have the same orientation", "statement": "visualize_2d, export_image and the views of regions show a 2D image in the same orientation.", "quantifier": "all 2D images", "why_tests_cant": "Ranges over all images; symmetric images hide it.", "anchors": ["src/viqa/utils/visualization.py:visualize_2d 594-636", "src/viqa/utils/export.py:export_image 225-228"]}
{"id": "C102", "title": "Centres of CNR can be shown", "statement": "visualize_centers shows the regions for every image and all centres and radii accepted by score.", "quantifier": "all images, centres and radii", "why_tests_cant": "Ranges over all arguments.", "anchors": ["src/viqa/nr_metrics/cnr.py:CNR.visualize_centers 162-272"]}
{"id": "C105", "title": "write_to_csv runs as its usage says", "statement": "The write_to_csv script works with the three required arguments alone, and with 'copy' it copies the images also if the output directory exists.", "quantifier": "all directory contents and arguments", "why_tests_cant": "Ranges over directory contents and states of the file system.", "anchors": ["src/scripts/write_to_csv.py"]}
{"id": "C104", "title": "Reduced projections can be written to the current directory", "statement": "The reduce_projections script writes the output file for every output path, also for a plain file name.", "quantifier": "all inputs and output paths", "why_tests_cant": "Ranges over all paths.", "anchors": ["src/scripts/reduce_projections.py:save_volume 63-71"]}
{"id": "C103", "title": "QMeasure histogram range covers the volume", "statement": "The value range handed to the native Q-measure calculation contains all values of the volume.", "quantifier": "all volumes", "why_tests_cant": "Ranges over all values; integer test volumes hide it.", "anchors": ["src/viqa/nr_metrics/qmeasure.py:QMeasure.score 142-151", "src/viqa/nr_metrics/qmeasure_utils/qmeasurecalcmodule.cpp 47-84"]}
{"id": "C106", "title": "Opening the interactive choice changes nothing", "statement": "Calling set_centers shows the widgets; the parameters of the metric change only when 'Save' is clicked.", "quantifier": "all sequences of user events", "why_tests_cant": "Ranges over event sequences; needs a running notebook front end.", "anchors": ["src/viqa/nr_metrics/cnr.py:CNR.set_centers 404-445", "src/viqa/nr_metrics/snr.py:SNR.set_centers 498-577"]}
{"id": "C107", "title": "Saved centres fit into the image", "statement": "Every centre and radius saved by the interactive choice describes regions inside of the image.", "quantifier": "all image sizes and sequences of user events", "why_tests_cant": "Ranges over event sequences and sizes.", "anchors": ["src/viqa/nr_metrics/cnr.py:CNR.set_centers 445-520", "src/viqa/nr_metrics/snr.py:SNR.set_centers 577-630"]}
{"id": "C108", "title": "print_score prints the score or warns", "statement": "After a successful score, print_score prints the name and the rounded score; without a score it prints nothing and issues a warning.", "quantifier": "all metrics and sequences of score, export and print_score", "why_tests_cant": "Thirteen implementations and every history of calls.", "anchors": ["src/viqa/fr_metrics/psnr.py:PSNR.print_score", "src/viqa/fr_metrics/msssim.py:MSSSIM.print_score", "src/viqa/fr_metrics/vif.py:VIFp.print_score", "src/viqa/fr_metrics/vsi.py:VSI.print_score", "src/viqa/utils/export.py:export_results 53-103"]}
{"id": "C109", "title": "Printed and exported names agree", "statement": "The name printed by print_score is the name of the metric in result files, and different metrics have different names.", "quantifier": "all metrics with and without chromatic", "why_tests_cant": "A relation over the whole family of metrics.", "anchors": ["src/viqa/fr_metrics/rmse.py", "src/viqa/fr_metrics/psnr.py", "src/viqa/fr_metrics/fsim.py", "src/viqa/nr_metrics/snr.py"]}
{"id": "C110", "title": "Reports do not overwrite each other", "statement": "Reports of different projects into the same directory, and the files of one report, have pairwise different paths, and every path has the extension of its kind.", "quantifier": "all directories, project names without slashes and numbers of pairs", "why_tests_cant": "Injectivity over all names and numbers.", "anchors": ["src/viqa/multiple.py:BatchMetrics.report 297-377", "src/viqa/multiple.py:MultipleMetrics.report 508-622"]}
{"id": "C111", "title": "A report writes what it was asked for", "statement": "report writes exactly the files asked for with their content, into the given directory or by default into the working directory, and reports missing results without touching existing files.", "quantifier": "all results, combinations of arguments, directories and project names", "why_tests_cant": "All combinations of arguments with all results.", "anchors": ["src/viqa/multiple.py:BatchMetrics.report 297-377", "src/viqa/multiple.py:MultipleMetrics.report 508-622"]}
{"id": "C112", "title": "Comparison images show what was scored", "statement": "The images saved by report show planes of the images, cropped to the region, for which the values below them were calculated.", "quantifier": "all image pairs, regions and metrics", "why_tests_cant": "Relates drawing and calculation, two code paths, for all regions.", "anchors": ["src/viqa/multiple.py:BatchMetrics.report 297-377", "src/viqa/utils/export.py:export_image 152-300"]}
{"id": "C113", "title": "Saved visualizations show the image", "statement": "The file written to export_path by visualize and by the views of centres, and the file written by export_image, contain the drawing that is displayed.", "quantifier": "all images, paths, backends and states of pyplot", "why_tests_cant": "Depends on the backend and on figures left by earlier calls.", "anchors": ["src/viqa/utils/visualization.py:visualize_2d 625-636", "src/viqa/utils/visualization.py:visualize_3d 714-716", "src/viqa/utils/export.py:export_image 311-318"]}
{"id": "C114", "title": "Figures do not accumulate", "statement": "Reports and visualizations leave no figure open, so that later calls display only their own figures.", "quantifier": "all numbers of pairs, sequences of calls and backends", "why_tests_cant": "Needs long sequences of calls and the state of pyplot.", "anchors": ["src/viqa/utils/export.py:export_image 311-318", "src/viqa/multiple.py:BatchMetrics.report 355-377"]}
{"id": "C115", "title": "visualize handles 2D images, colour images and volumes", "statement": "ImageArray.visualize shows 2D and colour images, shows volumes exactly for valid slices, raises ValueError for volumes without slices and for other dimensions, and issues the documented UserWarning if slices are given for a 2D image.", "quantifier": "all images and slices", "why_tests_cant": "All shapes with all slices.", "anchors": ["src/viqa/utils/loading.py:ImageArray.visualize 289-338"]}
{"id": "C116", "title": "Optional packages", "statement": "try_import returns the object and True if it can be imported, otherwise None and False with a warning; CNR and SNR can be imported without the optional packages, and the interactive choice raises an ImportError that names exactly the missing ones.", "quantifier": "all import systems, modules and names", "why_tests_cant": "Ranges over all installations.", "anchors": ["src/viqa/utils/_module.py", "src/viqa/nr_metrics/cnr.py 58-59, 328", "src/viqa/nr_metrics/snr.py 58-59, 390"]}
{"id": "C117", "title": "Choosing centres outside of notebooks", "statement": "Outside of an IPython environment set_centers shows the given or stored regions of CNR.", "quantifier": "all images, centres and radii", "why_tests_cant": "Ranges over all arguments.", "anchors": ["src/viqa/nr_metrics/cnr.py:CNR.set_centers 316-326"]}
{"id": "C118", "title": "Documented reductions of the piq metrics", "statement": "For volumes the argument reduction of MS-SSIM, VIF, FSIM and VSI gives the mean, the sum or the individual scores of the slices, as documented.", "quantifier": "all volumes and reductions", "why_tests_cant": "All volumes and numbers of slices.", "anchors": ["src/viqa/fr_metrics/msssim.py:score 111-284", "src/viqa/fr_metrics/vif.py:score", "src/viqa/fr_metrics/fsim.py:score", "src/viqa/fr_metrics/vsi.py:score"]}
{"id": "C119", "title": "Messages name the argument that is missing", "statement": "If dim is missing for a volume, the message of the ValueError says so; if im_slice has the wrong type, the message says so.", "quantifier": "six metrics, all volumes and arguments", "why_tests_cant": "Six implementations with different conditions.", "anchors": ["src/viqa/fr_metrics/msssim.py:score 259-266", "src/viqa/fr_metrics/mad.py:score 226-235", "src/viqa/fr_metrics/fsim.py:score 257-263"]}
{"id": "C120", "title": "Contrast sensitivity follows the spatial frequency", "statement": "The weights MAD gives to spatial frequencies are positive, constant for frequencies below 0.7 of the peak, strictly falling from the maximum of the sensitivity on, and they depend on the frequency alike along rows and columns: exchanging the axes of an image exchanges the weights.", "quantifier": "all image sizes, positions and parameters of the contrast sensitivity", "why_tests_cant": "A statement over real functions and all image sizes.", "anchors": ["src/viqa/fr_metrics/mad.py:_contrast_sensitivity_function 849-911"]}
{"id": "C121", "title": "write_to_mat converts every folder with a volume", "statement": "write_to_mat writes for every folder that holds the volume a file with its grey values mapped linearly onto 0 to 1, and prints how many.", "quantifier": "all directories and volumes", "why_tests_cant": "Ranges over all contents of a directory and all volumes.", "anchors": ["src/scripts/write_to_mat.py:write_to_mat 29-47"]}
{"id": "C122", "title": "Statistics can be calculated for every image", "statement": "calculate_statistics succeeds for images of every data type and size and sets the statistics to those of the image.", "quantifier": "all data types, contents and amounts of memory", "why_tests_cant": "The failing types need more memory than any test machine has.", "anchors": ["src/viqa/utils/loading.py:ImageArray.calculate_statistics 198-227"]}
{"id": "C123", "title": "describe exports the statistics or warns", "statement": "describe returns the statistics; with a path and a file name it writes a csv file into that directory that is read back as the names and values returned, otherwise it warns and writes nothing; an exported file holds the statistics of the image.", "quantifier": "all images, statistics, paths and file names", "why_tests_cant": "All texts and names, and arrays in every state.", "anchors": ["src/viqa/utils/loading.py:ImageArray.describe 229-287"]}
{"id": "C124", "title": "SNR.visualize_centers shows the region asked for", "statement": "visualize_centers of SNR draws the box, ball or region given by the arguments, and where they are missing the one stored in the metric, at its place in the image.", "quantifier": "all images, stored values and arguments", "why_tests_cant": "Depends on the history of the metric and on drawings that nobody checks.", "anchors": ["src/viqa/nr_metrics/snr.py:SNR.visualize_centers 168-311", "src/viqa/utils/visualization.py:_visualize_snr_2d 342-413", "src/viqa/utils/visualization.py:_visualize_snr_3d 416-572"]}
{"id": "C125", "title": "The interactive choice of SNR can be opened again", "statement": "set_centers of SNR opens with the values saved before, with the documented defaults for values that were never saved, and with nothing that belongs to another metric.", "quantifier": "all images, histories and starting values", "why_tests_cant": "Ranges over histories of a notebook session.", "anchors": ["src/viqa/nr_metrics/snr.py:SNR.set_centers 406-448, 542-703"]}
{"id": "C126", "title": "SNR.set_centers outside of notebooks", "statement": "Outside of notebooks set_centers shows the region given as starting values, or else the one stored.", "quantifier": "all images, starting values and stored values", "why_tests_cant": "Ranges over all arguments.", "anchors": ["src/viqa/nr_metrics/snr.py:SNR.set_centers 375-390"]}
{"id": "C127", "title": "Scores do not depend on the orientation of the images", "statement": "RMSE, PSNR, SSIM (gray and colour) and UQI give the same result if both images are flipped, rotated or transposed in the same way, for every parameter set and border rule, in any number of dimensions.", "quantifier": "all images, orientations and parameters", "why_tests_cant": "Ranges over all images and all compositions of flips and transpositions.", "anchors": ["src/viqa/fr_metrics/ssim.py:structural_similarity 200-421", "src/viqa/fr_metrics/uqi.py:score", "src/viqa/fr_metrics/rmse.py:score", "src/viqa/fr_metrics/psnr.py:score"]}
{"id": "C128", "title": "The unit of the gray values does not matter", "statement": "If both images and the data range are multiplied by the same factor, SSIM (unless the border is filled with a value other than zero that the score depends on), UQI and PSNR stay the same and RMSE is multiplied by it; GSM of floating point images stays the same if its constant c is multiplied, too.", "quantifier": "all images, factors, data ranges and parameters", "why_tests_cant": "A statement over all real factors.", "anchors": ["src/viqa/fr_metrics/ssim.py:structural_similarity 373-421", "src/viqa/fr_metrics/psnr.py:score", "src/viqa/fr_metrics/rmse.py:score", "src/viqa/fr_metrics/gsm.py:gradient_similarity 418-441"]}
{"id": "C129", "title": "GSM does not depend on which image is the reference", "statement": "Exchanging the two images does not change the result of GSM.", "quantifier": "all images and parameters", "why_tests_cant": "Fails only for images with equal mean gradients or wrapping differences.", "anchors": ["src/viqa/fr_metrics/gsm.py:gradient_similarity 418-441"]}
{"id": "C130", "title": "The appearance index compares structure, not brightness", "statement": "The appearance component of MAD does not change when a constant is added to one or both images, is zero for an image and a brightened copy, is symmetric in the two images and depends only on the proportions of the weights; a number of weights other than scales_num is refused.", "quantifier": "all floating point images, constants, weights, numbers of scales and orientations and statistics", "why_tests_cant": "A statement over all images; it rests on the Fourier transform of constants.", "anchors": ["src/viqa/fr_metrics/mad.py:_low_quality 706-805", "src/viqa/utils/misc.py:gabor_convolve 210-417"]}
{"id": "C131", "title": "Log-Gabor filters are tuned to their wavelength and orientation", "statement": "No filter of gabor_convolve amplifies a frequency, and a filter passes a frequency unchanged exactly if the frequency has the wavelength min_wavelength * wavelength_scaling ** scale and the direction orientation * pi / orientations_num.", "quantifier": "all image sizes, frequencies and parameters", "why_tests_cant": "A statement over real functions and all image sizes.", "anchors": ["src/viqa/utils/misc.py:gabor_convolve 329-412"]}
{"id": "C132", "title": "Moving the image moves the filter responses", "statement": "Shifting an image cyclically shifts every filter response of gabor_convolve by the same number of pixels.", "quantifier": "all images, shifts and parameters", "why_tests_cant": "Ranges over all images and shifts.", "anchors": ["src/viqa/utils/misc.py:gabor_convolve 334-415"]}
{"id": "C133", "title": "Parameters left out of a dictionary argument of MAD get their defaults", "statement": "The dictionaries luminance_function and csf_function of MAD may be left out or given in part; each parameter that is left out gets its documented default. account_monitor needs display_function, and without account_monitor the display has no influence.", "quantifier": "all images, dictionaries and other parameters", "why_tests_cant": "The tests leave the dictionaries out or give them completely.", "anchors": ["src/viqa/fr_metrics/mad.py:_high_quality 571-602", "src/viqa/fr_metrics/mad.py:_pixel_to_lightness 808-846"]}
{"id": "C134", "title": "The data range of MAD only limits integer images", "statement": "data_range has no influence on MAD of floating point images; integer images that fit into two data ranges get the same score with both, the score of the floating point images of the same values; images with a larger value are refused.", "quantifier": "all images, data ranges and parameters", "why_tests_cant": "Ranges over all images and data ranges.", "anchors": ["src/viqa/fr_metrics/mad.py:_pixel_to_lightness 838-846", "src/viqa/fr_metrics/mad.py:most_apparent_distortion 495-534"]}
{"id": "C135", "title": "Normalization in floating point arithmetic", "statement": "With every operation of normalize_data rounded, floating point images are still mapped into [0, data_range_output[1]] in order, within the resolution of the type of the exact linear map; the darkest pixel becomes 0 and the brightest becomes the upper limit.", "quantifier": "all float16, float32 and float64 images, both orders of magnitude and all three output ranges", "why_tests_cant": "Whether a quotient is rounded down past an integer depends on the values; no sample finds all.", "anchors": ["src/viqa/utils/loading.py:normalize_data 788-891"]}
{"id": "C136", "title": "Rounding does not affect the normalization of integer images", "statement": "Integer images of up to 32 bits are normalized to 255 and 65535 exactly as in exact arithmetic, although the intermediate values are floating point numbers.", "quantifier": "all integer images of up to 32 bits", "why_tests_cant": "Ranges over all pairs of minimum and maximum and all pixels (2^96 cases).", "anchors": ["src/viqa/utils/loading.py:normalize_data 788-891"]}
{"id": "C137", "title": "Flat regions have no signal to noise ratio, rounding included", "statement": "SNR of a flat region and CNR with a flat background region are 0 (the value for no noise), in floating point arithmetic and for every order in which the pixels are added.", "quantifier": "all flat regions and all orders of summation", "why_tests_cant": "Depends on the value and the number of pixels and on the order of summation chosen by numpy.", "anchors": ["src/viqa/nr_metrics/snr.py:signal_to_noise_ratio 1096-1099", "src/viqa/nr_metrics/cnr.py:contrast_to_noise_ratio 837-842"]}
{"id": "C138", "title": "SSIM of identical images is 1 in floating point arithmetic", "statement": "With float32 images and products and every operation rounded, SSIM of an image with itself differs from 1 by at most 2^-22, and exchanging the images does not change the result in the last bit.", "quantifier": "all images, filters, data ranges and orders of the last additions", "why_tests_cant": "Variances are differences of rounded numbers and may be wrong or negative; a sample of images shows nothing about others.", "anchors": ["src/viqa/fr_metrics/ssim.py:structural_similarity 365-421"]}
{"id": "C139", "title": "SSIM does not exceed 1 in floating point arithmetic", "statement": "With every operation rounded, SSIM lies between -1 and 1 up to 1/64.", "quantifier": "all images, accurate filters, data ranges and orders of the last additions", "why_tests_cant": "The violation needs images whose computed variances vanish while the covariance does not.", "anchors": ["src/viqa/fr_metrics/ssim.py:structural_similarity 365-421"]}
{"id": "C140", "title": "Images are continued beyond the border as the name of the rule says", "statement": "For every rule the value read at any distance from the border is that of the pixel the rule is named for: the closest (nearest), that of the repeated image (wrap), of the image mirrored at the edge (reflect) or at the centre (mirror) of the last pixel; and a name stands for the same rule in all functions.", "quantifier": "all rules, lengths and distances", "why_tests_cant": "A small image shows one reflection only; rules differ by one pixel.", "anchors": ["src/viqa/fr_metrics/ssim.py:structural_similarity 345-353", "src/viqa/fr_metrics/gsm.py:gradient_similarity", "src/viqa/utils/misc.py:correlate_convolve_abs 121-145"]}
{"id": "C141", "title": "SNR and CNR are accurate in floating point arithmetic", "statement": "For regions of up to 2^20 non-negative pixels with noise and an SNR of at most 2^16, the computed SNR differs from the quotient of the exact mean and standard deviation by at most 2^-28 of it, and the computed CNR from the exact one by at most 2^-28 of the sum of the means over the standard deviation, for every order of summation; for any number of bits and pixels the error is bounded by powers of the unit of rounding.", "quantifier": "all regions and all orders of summation", "why_tests_cant": "The error depends on all pixels and on the order of summation.", "anchors": ["src/viqa/nr_metrics/snr.py:signal_to_noise_ratio 1096-1099", "src/viqa/nr_metrics/cnr.py:contrast_to_noise_ratio 837-842"]}
{"id": "C142", "title": "The results of an object are those of one calculation", "statement": "After any sequence of calls of calculate, also calls that raise, the results of a BatchMetrics or MultipleMetrics object are those of one of the calls, and after a call that returns they are those a new object would have.", "quantifier": "all sequences of calls, metrics, files and regions", "why_tests_cant": "The tests call calculate once per object; a mixture needs an exception in the middle of a second batch.", "anchors": ["src/viqa/multiple.py:BatchMetrics.calculate 215-295", "src/viqa/multiple.py:MultipleMetrics.calculate 479-506"]}
{"id": "C143", "title": "Returned results stay as they are", "statement": "The dictionary returned by calculate keeps its entries, whatever is calculated with the object afterwards.", "quantifier": "all sequences of calls, metrics, files and regions", "why_tests_cant": "Needs a caller that keeps the results of one call while making another.", "anchors": ["src/viqa/multiple.py:BatchMetrics.calculate 293-295", "src/viqa/multiple.py:MultipleMetrics.calculate 501-506"]}
{"id": "C144", "title": "Zero error only for identical images, as computed", "statement": "In floating point arithmetic, for every order of summation: RMSE of identical images is 0, exchanging the images changes no bit of RMSE and PSNR, and RMSE is 0 or PSNR infinite only if the images are identical.", "quantifier": "all images, float32 and float64, all orders of summation", "why_tests_cant": "Underflow needs differences below 1e-22; tests use ordinary images.", "anchors": ["src/viqa/fr_metrics/rmse.py:RMSE.score 108-116", "src/viqa/fr_metrics/psnr.py:PSNR.score 121-131"]}
{"id": "C145", "title": "RMSE and PSNR rank images alike, as computed", "statement": "In floating point arithmetic, an image that is at least as close to its reference at every pixel has at most the RMSE, and of two image pairs with the same data range the one with the smaller RMSE has at least the PSNR.", "quantifier": "all images, all orders of summation, every implementation of log10 that is monotone; for PSNR data ranges of at least 2^-400 and mean squared errors of at most 2^200", "why_tests_cant": "Rounding could reverse close values; a test compares a few images.", "anchors": ["src/viqa/fr_metrics/rmse.py:RMSE.score 108-116", "src/viqa/fr_metrics/psnr.py:PSNR.score 121-131"]}
{"id": "C146", "title": "Accuracy of RMSE", "statement": "The RMSE computed in floating point arithmetic differs from the exact root mean square of the differences by at most one part in 4 million for float32 images and one part in a billion for float64 images, for every order of summation in which no pixel takes part in more than a million additions.", "quantifier": "all images whose pixels are equal or differ by at least 2^-63, all orders of summation", "why_tests_cant": "The error bound holds for all images and orders; tests compare with another rounded computation.", "anchors": ["src/viqa/fr_metrics/rmse.py:RMSE.score 108-116"]}
{"id": "C147", "title": "GSM of identical images is exactly 1 in floating point arithmetic", "statement": "The GSM of an image with itself, as computed, is exactly 1, or nan if the largest gradient m is 0 or 2 + c/m is 0; for every order of summation of at most 2^24 pixels (float32) or 2^53 pixels (float64). One pixel more, and there is an order with another result.", "quantifier": "all images, gradient filters, weights from 0 to 1, orders of summation and both float types", "why_tests_cant": "Rounding errors depend on the image and on the order in which the library adds.", "anchors": ["src/viqa/fr_metrics/gsm.py:gradient_similarity 418-441"]}
{"id": "C148", "title": "GSM does not exceed 1 in floating point arithmetic", "statement": "The GSM as computed is at most 1 if c is not negative, the weight is between 0 and 1, pixels differ by at most the data range, and some gradient is positive.", "quantifier": "all image pairs of up to 2^24 (float32) or 2^53 (float64) pixels, gradient filters, orders of summation and both float types", "why_tests_cant": "A value above 1 by one rounding error would break comparisons with 1; no test can try all images.", "anchors": ["src/viqa/fr_metrics/gsm.py:gradient_similarity 418-441"]}
{"id": "C149", "title": "A batch finds its files in file_dir", "statement": "BatchMetrics looks for the images of the pairs, and for the file of the pairs if its path is relative, in the directory file_dir.", "quantifier": "all working directories, directories, file names and file systems", "why_tests_cant": "The answer depends on the working directory; tests run in one.", "anchors": ["src/viqa/multiple.py:BatchMetrics.__init__ 201-213", "src/viqa/multiple.py:BatchMetrics.calculate 259-260", "src/viqa/multiple.py:_read_pairs 653-654"]}
{"id": "C150", "title": "Scores lie in the ranges of the table in README.md", "statement": "PSNR, CNR and SNR are never negative and the gradient similarity lies between 0 and 1, as the table of metrics says.", "quantifier": "all images, data ranges and regions", "why_tests_cant": "The range of a score is a statement about all images; tests compare a few scores with stored ones.", "anchors": ["README.md:Overview", "src/viqa/fr_metrics/psnr.py:PSNR.score 118-129", "src/viqa/fr_metrics/gsm.py:gradient_similarity 361-441", "src/viqa/nr_metrics/cnr.py:contrast_to_noise_ratio 836-842", "src/viqa/nr_metrics/snr.py:signal_to_noise_ratio 1096-1099"]}
{"id": "C151", "title": "Cropping does not change the SNR and CNR of regions in the crop", "statement": "The SNR of a cubic or spherical region, and the CNR of two, is the same in the image and in every crop of it that contains the regions, with the centres shifted accordingly.", "quantifier": "all images, crops, region types, centres and radii", "why_tests_cant": "Relates two calls for all crops; tests use one image.", "anchors": ["src/viqa/utils/loading.py:crop_image 894-955", "src/viqa/utils/misc.py:_to_spherical, _to_cubic 587-639", "src/viqa/nr_metrics/cnr.py:contrast_to_noise_ratio 796-842", "src/viqa/nr_metrics/snr.py:signal_to_noise_ratio 1020-1099"]}
{"id": "C152", "title": "The RMSE of a volume follows from its slices", "statement": "The square of the RMSE of two volumes is the mean of the squares of the RMSE of their slices along any axis, so it lies between the smallest and the largest of them.", "quantifier": "all volumes and axes", "why_tests_cant": "Relates the score of a volume to those of all its slices; holds for sizes no test tries.", "anchors": ["src/viqa/fr_metrics/rmse.py:RMSE.score 99-116"]}
{"id": "C153", "title": "SNR and CNR of half precision images", "statement": "For images of type float16 the computed SNR and CNR are close to the exact ones: the error is bounded by the number of roundings.", "quantifier": "all regions, all orders of summation", "why_tests_cant": "Depends on the size of intermediate sums: the regions of tests are small or dark, and other types are not affected.", "anchors": ["src/viqa/nr_metrics/snr.py:signal_to_noise_ratio 1096-1099", "src/viqa/nr_metrics/cnr.py:contrast_to_noise_ratio 837-842", "src/viqa/utils/loading.py:load_raw 474-530, _parse_bitdepth 1033-1034"]}
{"id": "C154", "title": "Small changes of the images change the scores little", "statement": "RMSE changes at most by the largest changes of the pixels of both images. For SSIM with positive constants, non-negative exponents and no fill value other than zero that the score depends on, for PSNR, SNR and CNR: for every tolerance of the score there is a tolerance of the pixels, so that images within it have scores within the tolerance; next to identical images PSNR exceeds every bound.", "quantifier": "all images, parameters and tolerances", "why_tests_cant": "A statement about all images near a given one; tests look at single images.", "anchors": ["src/viqa/fr_metrics/rmse.py:RMSE.score 108-116", "src/viqa/fr_metrics/psnr.py:PSNR.score 118-131", "src/viqa/fr_metrics/ssim.py:structural_similarity 366-421", "src/viqa/nr_metrics/snr.py:signal_to_noise_ratio 1096-1099", "src/viqa/nr_metrics/cnr.py:contrast_to_noise_ratio 837-842"]}
{"id": "C155", "title": "Result files can be read back", "statement": "The csv files of results (BatchMetrics, MultipleMetrics, export_results, ImageArray.describe) are read by csv.reader as exactly the rows of texts that were written, whatever characters the names contain. The result file of a batch can be used as pair file: it gives the pairs of the batch in the same order.", "quantifier": "all results, names of files and metrics", "why_tests_cant": "Quoting of delimiters, quotes and line breaks in arbitrary names; tests use plain ones.", "anchors": ["src/viqa/multiple.py:BatchMetrics.export_results 379-416", "src/viqa/multiple.py:MultipleMetrics.export_results 623-650", "src/viqa/multiple.py:_read_pairs 653-666", "src/viqa/utils/export.py:export_results 53-103", "src/viqa/utils/loading.py:ImageArray.describe 272-281"]}
{"id": "C156", "title": "Pair files written by hand", "statement": "A csv file of image pairs gives the pairs as written, in the same order, whatever the delimiter (comma, semicolon, tabulator) and the line breaks are, with or without a line break at the end, and blanks between the delimiter and a name are not part of the name.", "quantifier": "all names without quotes, delimiters and line breaks, all numbers of rows and blanks", "why_tests_cant": "The dialect is guessed from the first line, so the meaning of all later rows depends on it; tests use one file written by csv.writer.", "anchors": ["src/viqa/multiple.py:_read_pairs 653-666"]}
{"id": "C157", "title": "Pair files may have further columns in any order", "statement": "If the header of a pair file contains reference_image and modified_image, the pair of each row is taken from these two columns, wherever they are and whatever the other columns are called and contain.", "quantifier": "all headers, positions and rows", "why_tests_cant": "All orders and contents of columns; the guess of the delimiter depends on the names of the other columns.", "anchors": ["src/viqa/multiple.py:_read_pairs 653-666"]}
{"id": "C158", "title": "Statistics of an image mean what they are called", "statement": "Minimum and maximum are pixels of the image, mean and median lie between them and differ at most by the standard deviation; half of the pixels lie on each side of the median; the variance is the square of the standard deviation, zero exactly for constant images; the squared skewness is at most the kurtosis plus 2. No statistic depends on the order of the pixels; gain, offset and inversion of the gray values act as expected. Skewness and kurtosis are defined for every image that is not constant.", "quantifier": "all images", "why_tests_cant": "Inequalities between statistics for all images; tests compare with numpy on one image.", "anchors": ["src/viqa/utils/loading.py:ImageArray.calculate_statistics 198-230"]}
{"id": "C159", "title": "The histogram counts every pixel once", "statement": "The counts of the histogram add to the number of pixels, each pixel is counted in the bin between whose edges it lies, and pixels with different integer gray values (of an image with 8 bit gray values) are counted in different bins.", "quantifier": "all images", "why_tests_cant": "All images and edges, including pixels exactly at the edges.", "anchors": ["src/viqa/utils/loading.py:ImageArray.calculate_statistics 221-228"]}
{"id": "C160", "title": "Few changed pixels change SSIM little", "statement": "If two pairs of images agree in all but k pixels, their SSIM differs at most by 2 k window^ndim divided by the number of windows; in particular a copy with k changed pixels scores at least 1 minus this number, whatever the new gray values are. The same bound holds for UQI.", "quantifier": "all images, numbers of changed pixels, gray values, constants, exponents >= 0 and windows (with Gaussian weights the window that follows from sigma)", "why_tests_cant": "The bound must hold for every gray value of the changed pixels and every position; tests try one change.", "anchors": ["src/viqa/fr_metrics/ssim.py:structural_similarity 206-400"]}
{"id": "C161", "title": "The stronger the distortion, the worse the score", "statement": "If the difference between two images is multiplied by a factor, RMSE grows by this factor and PSNR falls by 20 log10 of it, whatever the difference looks like. The farther the gain of an image is from 1, the lower is the SSIM with the original; the more it is brightened, the lower are SSIM and GSM. Any difference that becomes stronger lowers SSIM.", "quantifier": "all images, differences, gains, offsets, windows and constants", "why_tests_cant": "Monotony over a continuum of strengths and all images; tests compare few values.", "anchors": ["src/viqa/fr_metrics/ssim.py:structural_similarity 373-421", "src/viqa/fr_metrics/gsm.py:gradient_similarity 361-441", "src/viqa/fr_metrics/rmse.py:RMSE.score", "src/viqa/fr_metrics/psnr.py:PSNR.score", "src/viqa/fr_metrics/gsm.py:gradient_similarity"]}
{"id": "C162", "title": "The two workflows of the user guide give the same images to a metric", "statement": "Loading the images first with load_data (normalization and region included) and handing the arrays to a metric is the same as handing the files and the parameters to the metric; load_data with normalize=True and normalize_data have the same effect; handing over the parameters a second time changes nothing; an image can be cropped before or while it is loaded.", "quantifier": "all inputs, parameters, images and files", "why_tests_cant": "Two routes through the code must agree for all inputs and parameters; tests check each route on its own.", "anchors": ["src/viqa/utils/loading.py:load_data 615-785", "src/viqa/utils/loading.py:normalize_data", "src/viqa/_metrics.py:FullReferenceMetricsInterface.load_images", "src/viqa/utils/misc.py:_check_imgs", "docs/source/user_guide.rst 25-100"]}
{"id": "C163", "title": "The format of the file does not matter", "statement": "A volume stored as raw or mhd file and as NIfTI file (either byte order) gives the same voxels at the same coordinates; slope and intercept of a NIfTI header are applied; files of different formats can be compared and normalized alike; a time axis of length one does not matter.", "quantifier": "all sizes, data types, gray values, headers", "why_tests_cant": "The order of voxels, bit patterns of all data types and scaling for all volumes; tests load one file per format.", "anchors": ["src/viqa/utils/loading.py:load_nifti 564-589", "src/viqa/utils/loading.py:_load_binary 592-612", "src/viqa/utils/loading.py:_check_imgs 958-1011", "src/viqa/utils/loading.py:load_data 744-766"]}
{"id": "C164", "title": "The data of an mhd volume are read as its header describes them", "statement": "Each voxel loaded from an mhd file is the one that the header describes: byte order (ElementByteOrderMSB) and header of the data file (HeaderSize) are respected, or the file is rejected.", "quantifier": "all headers, volumes and data types", "why_tests_cant": "Silently wrong gray values for headers that no test uses.", "anchors": ["src/viqa/utils/loading.py:load_mhd 395-471", "src/viqa/utils/loading.py:_load_binary 592-612"]}
{"id": "C165", "title": "The version is the same everywhere", "statement": "The version in __init__.py is the version of the build (meson) and of the documentation (Sphinx).", "quantifier": "all versions and surrounding lines", "why_tests_cant": "The scripts parse source text in different ways; they are not tested.", "anchors": ["src/viqa/utils/_build/version.py 23-28", "docs/source/conf.py 16-24", "src/viqa/__init__.py:get_version"]}
{"id": "C166", "title": "Requirement files list the declared dependencies", "statement": "The generated file of each group of dependencies lists exactly its requirements in the same order; each group has its own file.", "quantifier": "all groups and requirements", "why_tests_cant": "The script is not tested.", "anchors": ["tools/generate_requirements.py 29-46"]}
{"id": "C167", "title": "Small changes of the images change the gradient similarity little", "statement": "For every tolerance of the gradient similarity there is a tolerance of the pixels, so that images within it have scores within the tolerance.", "quantifier": "all floating point planes and volumes, constants c >= 0, tolerances", "why_tests_cant": "Continuity over a continuum of images; a test compares finitely many.", "anchors": ["src/viqa/fr_metrics/gsm.py:gradient_similarity 361-441"]}
{"id": "C168", "title": "The PSNR of a volume follows from its slices", "statement": "The PSNR of two volumes is at least the smallest PSNR of their slices along any axis and at most the mean of them (infinite if some slices agree); it is infinite exactly if all slices agree.", "quantifier": "all volumes, axes and data ranges", "why_tests_cant": "An inequality between logarithms of means for all volumes; tests compare numbers of one volume.", "anchors": ["src/viqa/fr_metrics/psnr.py:PSNR.score 95-147"]}
{"id": "C169", "title": "Worse components never improve MAD", "statement": "If the detection index or the appearance index grows and the other one stays, MAD does not fall.", "quantifier": "all values of the indices and parameters", "why_tests_cant": "Monotony over a continuum of values, in a product of powers whose exponents depend on the values.", "anchors": ["src/viqa/fr_metrics/mad.py:most_apparent_distortion 526-535"]}
{"id": "C170", "title": "Keyword arguments of score are used or rejected", "statement": "A call of score with documented keyword arguments is accepted and every one of them is read; any other keyword raises TypeError.", "quantifier": "all metrics, all lists of keywords, slices and volumes", "why_tests_cant": "All lists of names, through several levels of keyword dictionaries; tests call a few combinations.", "anchors": ["src/viqa/fr_metrics/ssim.py:SSIM.score 127-179", "src/viqa/fr_metrics/gsm.py:GSM.score 130-256", "src/viqa/fr_metrics/mad.py:MAD.score 127-247", "src/viqa/nr_metrics/cnr.py:CNR.score 106-142"]}
{"id": "C171", "title": "The examples of the documentation show the actual scores", "statement": "The scores shown in the examples of RMSE, PSNR, SSIM and UQI are those of uniform images: RMSE is the distance of the gray values, PSNR follows from it, SSIM and UQI are 1 for equal and 0 for black and white images, and the printed score is the rounded score.", "quantifier": "all shapes, gray values and data ranges", "why_tests_cant": "The examples are not run as tests by default and cover single values.", "anchors": ["src/viqa/fr_metrics/rmse.py 3-21", "src/viqa/fr_metrics/psnr.py 3-22", "src/viqa/fr_metrics/ssim.py 12-37", "src/viqa/fr_metrics/uqi.py 17-42"]}
{"id": "C172", "title": "The notebooks run for every choice of metrics", "statement": "For every setting of the flags calc_* the two notebooks compute the chosen metrics: every keyword of the delivered parameter dictionaries is accepted and read, images of different shapes are resized, and the results have one entry per chosen metric (two for metrics without reference) with its score.", "quantifier": "all settings of the flags, all images and scores, both notebooks", "why_tests_cant": "4096 settings of the flags per notebook and all images; notebooks are not run by tests.", "anchors": ["notebooks/Image_Comparison.ipynb cells 4-44", "notebooks/Image_Comparison_batch.ipynb cells 4-49", "src/viqa/multiple.py:MultipleMetrics.calculate 479-506"]}
{"id": "C173", "title": "The comparison figure shows every score at its own place", "statement": "export_image writes every entry of the results exactly once with its value, no two at the same place, all of them between the left and right edge of the figure, and for the metrics of the package above its lower edge.", "quantifier": "all lists of results", "why_tests_cant": "Any number of metrics of both kinds; figures are not compared by tests.", "anchors": ["src/viqa/utils/export.py:export_image 264-303"]}
{"id": "C174", "title": "Keywords of calculate and report are used or rejected", "statement": "calculate and report of MultipleMetrics and BatchMetrics read every documented keyword, hand the others to the functions named in the documentation, and raise for unknown ones.", "quantifier": "all lists of keywords, any number of pairs", "why_tests_cant": "All lists of names through several levels of keyword dictionaries.", "anchors": ["src/viqa/multiple.py:BatchMetrics.calculate 215-295", "src/viqa/multiple.py:BatchMetrics.report 297-377", "src/viqa/multiple.py:MultipleMetrics.report 508-622", "src/viqa/multiple.py:_calc 669-684"]}
{"id": "C175", "title": "The score of a volume is the average of its slices, one slice changes it by its share", "statement": "For the metrics computed slice by slice the score of a volume lies between the worst and the best score of its slices; if one of n slices is changed, the score of the volume changes by the change of the score of this slice divided by n.", "quantifier": "all volumes whose last axis has not the length 3, all six metrics, all axes that are cut", "why_tests_cant": "All volumes and all changes of a slice.", "anchors": ["src/viqa/fr_metrics/gsm.py:gradient_similarity_3d 277-358", "src/viqa/fr_metrics/mad.py:most_apparent_distortion_3d 268-335", "src/viqa/fr_metrics/fsim.py:FSIM.score 201-278"]}
{"id": "C176", "title": "SNR and CNR only depend on the pixels near the given centres", "statement": "With given centres and a cubic or spherical region, two images of one shape that agree on the pixels within the radius of the centres get the same SNR and CNR or raise the same error, colour images included.", "quantifier": "all images, centres, radii, both kinds of region", "why_tests_cant": "All pairs of images that differ anywhere outside of the regions.", "anchors": ["src/viqa/nr_metrics/cnr.py:contrast_to_noise_ratio 757-842", "src/viqa/nr_metrics/snr.py:signal_to_noise_ratio 986-1124", "src/viqa/utils/misc.py:_to_cubic 615-639", "src/viqa/utils/misc.py:_to_spherical 587-612"]}
{"id": "C177", "title": "RMSE and PSNR do not depend on the arrangement of the pixels", "statement": "RMSE and PSNR are determined by the pairs of corresponding gray values and their relative frequency: rearranging the pixels of both images alike, reshaping them, or repeating every pixel equally often does not change the scores.", "quantifier": "all pairs of images, all rearrangements and repetitions", "why_tests_cant": "All bijections between the pixels of images of any two shapes.", "anchors": ["src/viqa/fr_metrics/rmse.py:RMSE.score 92-118", "src/viqa/fr_metrics/psnr.py:PSNR.score 105-147"]}
{"id": "C178", "title": "The score of a call does not depend on earlier calls", "statement": "The result of a call of score with explicit arguments is the same on a new metric object and on one that has scored any other images before.", "quantifier": "all metrics, all sequences of earlier calls, failing or not, with any arguments", "why_tests_cant": "All histories of an object; tests use a new object or few calls.", "anchors": ["src/viqa/nr_metrics/cnr.py:CNR.score 106-142", "src/viqa/nr_metrics/snr.py:SNR.score 110-148", "src/viqa/_metrics.py:load_images 144-166", "src/viqa/nr_metrics/cnr.py:contrast_to_noise_ratio 757", "src/viqa/nr_metrics/snr.py:signal_to_noise_ratio 986"]}
{"id": "C179", "title": "Keyword arguments of constructors are used or rejected", "statement": "The constructors of the metrics accept the documented keywords (those of load_data, chromatic, and name of SNR) and use them; any other keyword raises TypeError.", "quantifier": "all 13 classes, all lists of keywords", "why_tests_cant": "All names and lists of names; a misspelled keyword is one of infinitely many.", "anchors": ["src/viqa/_metrics.py:Metric.__init__ 27-40", "src/viqa/_metrics.py:load_images 127-135", "src/viqa/_metrics.py:load_images 158-165", "src/viqa/nr_metrics/snr.py:SNR.__init__ 104-108"]}
{"id": "C180", "title": "The exponents of SSIM weight luminance, contrast and structure", "statement": "alpha, beta and gamma are the weights of the luminance, contrast and structure comparison: weight 0 leaves the comparison out (without luminance the brightness of either image does not matter, contrast alone ignores sign and brightness, structure alone ignores gain and brightness, luminance alone only sees the smoothed images), and greater weights never raise the score of images that vary alike; any float is such a weight.", "quantifier": "all images, window arguments, weights, gains and offsets", "why_tests_cant": "Invariances and an order over all images and parameters.", "anchors": ["src/viqa/fr_metrics/ssim.py:structural_similarity 228-233", "src/viqa/fr_metrics/ssim.py:structural_similarity 355-411"]}
{"id": "C181", "title": "The parameters c and p of GSM act as documented", "statement": "p weighs luminance against structure: with p = 0 the brightness of either image does not matter, and the loss by a change of brightness of the modified image is proportional to p; c masks differences of structure: for p <= 1/2 (documented p << 0.5) a greater c >= 0 never lowers the score of floating-point images within the data range whose largest gradient is positive.", "quantifier": "all floating-point images, data ranges, brightness offsets, p and c", "why_tests_cant": "An order and a proportionality over all images and parameters.", "anchors": ["src/viqa/fr_metrics/gsm.py:gradient_similarity 361-445", "src/viqa/fr_metrics/gsm.py:gradient_similarity_3d 277-358"]}
{"id": "C182", "title": "Few changed pixels change RMSE and PSNR by their share", "statement": "If two pairs of images agree up to k of N pixels and no corresponding pixels are more than R apart, the squares of their RMSE differ by at most k/N R^2, their RMSE by at most R sqrt(k/N); an image with k replaced pixels within the data range has a PSNR of at least 10 log10(N/k) dB.", "quantifier": "all images, numbers of dimensions, sets of pixels and replacement values", "why_tests_cant": "Every set of pixels and every replacement.", "anchors": ["src/viqa/fr_metrics/rmse.py:RMSE.score 108-116", "src/viqa/fr_metrics/psnr.py:PSNR.score 95-147"]}
{"id": "C183", "title": "A greater data range is more forgiving", "statement": "Stating a greater data range never lowers the score of two images: PSNR grows by 20 log10 of the ratio, SSIM (also with greater K1 and K2) and GSM do not fall.", "quantifier": "all images, data ranges and parameters", "why_tests_cant": "An order over all images and parameters; scores of a few images do not show it.", "anchors": ["src/viqa/fr_metrics/ssim.py:structural_similarity 355-411", "src/viqa/fr_metrics/psnr.py:PSNR.score 105-147", "src/viqa/fr_metrics/gsm.py:gradient_similarity 428-445"]}
{"id": "C184", "title": "Normalization does not change the contrast to noise ratio", "statement": "CNR compares gray values relative to the noise, so normalizing an image beforehand (normalize=True) does not change it, whatever the regions and the data range.", "quantifier": "all images, regions and data ranges", "why_tests_cant": "All images and regions; the statement relates two computations.", "anchors": ["src/viqa/utils/loading.py:normalize_data 788-891", "src/viqa/nr_metrics/cnr.py:contrast_to_noise_ratio 678-840"]}
{"id": "C185", "title": "Pixels that are not a number do not go unnoticed", "statement": "If an image contains pixels that are not a number (nan), the metrics that use these pixels do not return an ordinary score: RMSE, PSNR, SSIM, GSM, SNR and CNR return nan (or raise an exception) as soon as one pixel they look at is nan.", "quantifier": "all images with nan at any positions", "why_tests_cant": "Positions and number of nan are unbounded; whether a nan survives depends on every operation on the way to the score.", "anchors": ["src/viqa/fr_metrics/ssim.py:structural_similarity 373-421", "src/viqa/fr_metrics/gsm.py:gradient_similarity 361-441", "src/viqa/fr_metrics/rmse.py:RMSE.score 70-120", "src/viqa/fr_metrics/psnr.py:PSNR.score 95-147", "src/viqa/nr_metrics/cnr.py:contrast_to_noise_ratio 833-838", "src/viqa/nr_metrics/snr.py:signal_to_noise_ratio 1095-1099"]}
{"id": "C186", "title": "Copied images are those of the pair file", "statement": "After write_to_csv with 'copy', the folder images together with pairs.csv describes the images that were found: for every row, the file with the first name is a copy of the reference image and the file with the second name is a copy of the modified image of that row.", "quantifier": "all directory contents and all earlier contents of the folder", "why_tests_cant": "Ranges over all lists of files and contents; the loops share one destination folder.", "anchors": ["src/scripts/write_to_csv.py:write_to_csv 26-51", "src/scripts/write_to_csv.py:copy_file 54-57"]}
{"id": "C187", "title": "Normalization does not make an image perfect", "statement": "With normalize=True and data range 1, SSIM gives 1 only if the normalized images agree, that is if the modified image shows the gray values of the reference up to brightness and contrast; an image without content or with missing pixels does not get the score of a copy.", "quantifier": "all images and window arguments", "why_tests_cant": "All images; a composition of two computations with a division by zero in between.", "anchors": ["src/viqa/utils/loading.py:normalize_data 788-891", "src/viqa/utils/loading.py:load_data 762-766", "src/viqa/fr_metrics/ssim.py:structural_similarity 396-421"]}
{"id": "C188", "title": "Averaging images does not worsen the score", "statement": "The average of several images of the same object is not farther from the reference than the worst of them: the RMSE of a weighted average is at most the weighted average of the RMSE, its PSNR (and SSIM) at least the lowest; averaging n images of the same PSNR with uncorrelated errors adds 10 log10 n dB.", "quantifier": "all numbers of images, weights, images and references", "why_tests_cant": "An inequality over all images and numbers of images.", "anchors": ["src/viqa/fr_metrics/rmse.py:RMSE.score 92-118", "src/viqa/fr_metrics/psnr.py:PSNR.score 95-147", "src/viqa/fr_metrics/ssim.py:structural_similarity 373-421"]}
{"id": "C189", "title": "Averaging scans does not lower SNR and CNR", "statement": "If n scans have an SNR (CNR) of at least P > 0 for given regions, so has their average; if means and noise of the scans agree and the noise is not correlated, the SNR (CNR) of the average is sqrt(n) times that of one scan.", "quantifier": "all numbers of scans, gray scale images and given regions", "why_tests_cant": "An inequality over all images and numbers of images.", "anchors": ["src/viqa/nr_metrics/snr.py:signal_to_noise_ratio 1095-1099", "src/viqa/nr_metrics/cnr.py:contrast_to_noise_ratio 833-838"]}
{"id": "C190", "title": "SNR and CNR follow contrast and noise", "statement": "For given regions: t times the noise (deviations from the mean) in the region divides SNR by t, a region brighter by d adds d divided by the noise, and added noise without correlation adds to the variance; t times the noise of the background divides CNR by t and a signal brighter by d adds d divided by the noise of the background.", "quantifier": "all gray scale images, disjoint regions, factors and offsets", "why_tests_cant": "Laws over all images and regions.", "anchors": ["src/viqa/nr_metrics/snr.py:signal_to_noise_ratio 1095-1099", "src/viqa/nr_metrics/cnr.py:contrast_to_noise_ratio 833-838"]}
{"id": "C191", "title": "The bit depth of the normalization hardly matters for RMSE", "statement": "RMSE of two images normalized to (0, 255) or (0, 65535), divided by 255 or 65535, differs from the RMSE of the images normalized to (0, 1) by at most one gray value (1/255 or 1/65535).", "quantifier": "all pairs of images that are not uniform", "why_tests_cant": "An error bound over all images; the truncation to integers happens inside normalize_data.", "anchors": ["src/viqa/utils/loading.py:normalize_data 788-891", "src/viqa/fr_metrics/rmse.py:RMSE.score 92-118"]}
{"id": "C192", "title": "Printed scores are the rounded scores", "statement": "print_score(decimals) and report (print_values(decimals)) print a number with at most that many decimal places, at most half a unit of the last place away from the score; a greater score is never printed as a smaller number, and both print the same number for the same score.", "quantifier": "all finite scores and numbers of decimals", "why_tests_cant": "All floating point numbers; the two ways of rounding differ next to ties only.", "anchors": ["src/viqa/fr_metrics/rmse.py:RMSE.print_score 114-130", "src/viqa/fr_metrics/ssim.py:SSIM.print_score 181-197", "src/viqa/multiple.py:MultipleMetrics.print_values 613-622"]}
{"id": "C193", "title": "Accuracy of PSNR", "statement": "PSNR as computed in floating point arithmetic differs from its exact value by less than 0.00001 dB for float32 images and less than 0.0000001 dB for float64 images, apart from the error of the logarithm of the platform, for every order in which the pixels are added (as long as a pixel takes part in at most a million additions).", "quantifier": "all float32 and float64 images whose pixels are equal or differ by at least 2^-63, with data range and RMSE between 2^-100 and 2^100", "why_tests_cant": "An error bound over all images and orders of summation.", "anchors": ["src/viqa/fr_metrics/psnr.py:PSNR.score 95-131"]}
{"id": "C194", "title": "Accuracy of SSIM", "statement": "SSIM as computed in float32 differs from its exact value by at most 1/60, for every pair of images without pixels larger than the data range: rounding does not decide what the score says about the images.", "quantifier": "all float32 images with pixels up to the data range, all window weights, every filter with an error of at most four units of rounding, every order of the final sum", "why_tests_cant": "An error bound over all images, filters and orders of summation; test images hardly ever contain a nearly uniform window opposite a textured one.", "anchors": ["src/viqa/fr_metrics/ssim.py:structural_similarity 365-421"]}
{"id": "C195", "title": "Infinite pixels do not go unnoticed", "statement": "An infinite pixel in one of the images (a division by zero in the reconstruction, an overflow) shows in the result: no metric returns an ordinary number for such images, and normalization leaves the finite pixels distinguishable.", "quantifier": "all shapes, all images with finite, infinite and undefined pixels, all regions, all arguments of SSIM", "why_tests_cant": "The effect of infinities differs between sums, running sums, quotients and comparisons; tests use finite images.", "anchors": ["src/viqa/fr_metrics/rmse.py:RMSE.score", "src/viqa/fr_metrics/psnr.py:PSNR.score", "src/viqa/fr_metrics/ssim.py:structural_similarity", "src/viqa/nr_metrics/snr.py:signal_to_noise_ratio", "src/viqa/nr_metrics/cnr.py:contrast_to_noise_ratio", "src/viqa/utils/loading.py:normalize_data"]}
{"id": "C196", "title": "A failing report does not destroy earlier files", "statement": "If report of BatchMetrics or MultipleMetrics raises, files of earlier reports keep their content or are replaced as a whole; files that are not part of the report are never touched.", "quantifier": "all contents of the output directory, all results (also before a calculation), parameters, drawings, directories and projects", "why_tests_cant": "Tests write into fresh directories; here every earlier content of every file and every place of the exception counts.", "anchors": ["src/viqa/multiple.py:BatchMetrics.report 296-377", "src/viqa/multiple.py:BatchMetrics.export_results 379-416", "src/viqa/multiple.py:MultipleMetrics.report 507-612", "src/viqa/utils/export.py:export_metadata 103-150"]}
{"id": "C197", "title": "Files are closed after use", "statement": "Every file opened by the readers of volumes and pair files and by the exports has been closed by the same call when it returns or raises; loading many volumes one after the other does not accumulate open files.", "quantifier": "all files, file contents, headers, names and numbers of volumes, successful and failing calls", "why_tests_cant": "An open file shows neither in results nor in exceptions; the interpreter may close it later.", "anchors": ["src/viqa/utils/loading.py:load_mhd 395-471", "src/viqa/utils/loading.py:load_raw 474-561", "src/viqa/utils/loading.py:_load_binary 592-612", "src/viqa/multiple.py:_read_pairs 653-666", "src/viqa/utils/export.py:export_results 93-101"]}
{"id": "C198", "title": "RMSE and PSNR of integer images are reproducible", "statement": "The computed RMSE and PSNR of integer images do not depend on the order in which the pixels are added (version of NumPy, memory layout, orientation, processor) nor on whether the same gray values are stored as integers or as floating point numbers.", "quantifier": "all integer images, all orders of summation, integer, float32 and float64 storage", "why_tests_cant": "All orders of millions of additions; differences show only in the last digits of large volumes.", "anchors": ["src/viqa/fr_metrics/rmse.py:RMSE.score 108-116", "src/viqa/fr_metrics/psnr.py:PSNR.score 121-131"]}
{"id": "C199", "title": "SSIM is 1 only for identical images, as computed", "statement": "If SSIM with default arguments is exactly 1, the images are identical: no difference is lost in float32 arithmetic.", "quantifier": "all images of 16 bits and all float32 images with pixels up to the data range, all filters and orders of summation within the error bounds", "why_tests_cant": "Which differences are lost depends on the rounding of every intermediate image.", "anchors": ["src/viqa/fr_metrics/ssim.py:structural_similarity 365-421"]}
{"id": "C200", "title": "Metrics in lists, sets and dictionaries are the objects themselves", "statement": "For a list of metrics, `metric in metrics`, `metrics.index(metric)`, `metrics.count(metric)` and `metrics.remove(metric)` concern this metric object; metrics can be put into sets and used as keys of dictionaries. `sorted(metrics)` puts scored metrics in ascending order of their scores, keeping the order of equal ones, `max(metrics)` has the highest score, and sorting with a metric that has no score raises a TypeError.", "quantifier": "all lists of metrics of all classes, all scores and parameters, before and after scoring", "why_tests_cant": "Every list and every combination of equal, different and missing scores; tests compare single pairs of metrics.", "anchors": ["src/viqa/_metrics.py:Metric.__eq__ 66-70", "src/viqa/_metrics.py:Metric.__lt__ 72-76", "src/viqa/_metrics.py:Metric.__gt__ 78-82"]}
{"id": "C201", "title": "Accuracy of GSM in floating point arithmetic", "statement": "For the gradient images as computed, the quality of every pixel differs from the exact formula by at most 140 units of the floating point type (2^-24 for float32 images, 2^-53 otherwise), however small the divisor is, and the score by at most 160 units plus 7 units per addition a pixel takes part in. For integer gradients the choice of the divisor is the exact one.", "quantifier": "all gradient images with a positive value, all images with pixels that differ by at most the data range, constants c >= 0 and weights 0 <= p <= 1, all orders of summation", "why_tests_cant": "Rounding depends on every pixel; tests know a few scores to a few digits.", "anchors": ["src/viqa/fr_metrics/gsm.py:gradient_similarity 418-441"]}
{"id": "C202", "title": "UQI lies between -1 and 1 in floating point arithmetic", "statement": "The universal quality index of two images, computed in float32, lies between -1 and 1 up to a small error, and is 1 up to 2^-22 for identical images.", "quantifier": "all images of all sizes and bit depths, all windows and all orders of the last additions", "why_tests_cant": "Variances are lost by rounding only for particular gray values; tests use a few images.", "anchors": ["src/viqa/fr_metrics/uqi.py:UQI.score 153-164", "src/viqa/fr_metrics/ssim.py:structural_similarity 374-421"]}
{"id": "C203", "title": "Accuracy of UQI in floating point arithmetic", "statement": "The universal quality index of two images without negative pixels, computed in float32, differs from the formula of Wang and Bovik, 4 cov(x, y) mean(x) mean(y) / ((var(x) + var(y)) (mean(x)^2 + mean(y)^2)), averaged over all windows that are not uniform, by a small error only.", "quantifier": "all images of all sizes and bit depths, all windows and all orders of the last additions", "why_tests_cant": "Rounding depends on every pixel; tests know a few scores to a few digits.", "anchors": ["src/viqa/fr_metrics/uqi.py:UQI.score 153-164", "src/viqa/fr_metrics/ssim.py:structural_similarity 374-421"]}
{"id": "C204", "title": "SNR and CNR of integer images are reproducible", "statement": "The signal to noise ratio and the contrast to noise ratio of integer images, as computed, depend on the gray values of the regions only, not on the order in which NumPy adds them (which follows from shape, memory layout and version) nor on the arrangement of the pixels in the region.", "quantifier": "all regions of integer images and all orders of summation", "why_tests_cant": "Equality of floating point results for every order of additions; tests see one order.", "anchors": ["src/viqa/nr_metrics/snr.py:signal_to_noise_ratio 1096-1099", "src/viqa/nr_metrics/cnr.py:contrast_to_noise_ratio 837-842"]}
{"id": "C205", "title": "Normalization does not change which image is better", "statement": "Of two images with the same reference, the one with the lower RMSE (higher PSNR) also has the lower RMSE (higher PSNR) with normalize=True: normalization brings the images to a common scale and does not change their ranking.", "quantifier": "all float32, float64 and unsigned integer references and modified images that are not uniform, of all sizes", "why_tests_cant": "Every image is normalized by its own range of gray values; whether this can invert a ranking is a question about all triples of images.", "anchors": ["src/viqa/utils/loading.py:normalize_data", "src/viqa/fr_metrics/rmse.py:RMSE.score 94-116", "src/viqa/fr_metrics/psnr.py:PSNR.score 106-131"]}
{"id": "C206", "title": "Normalization does not change the signal to noise ratio", "statement": "SNR compares the gray values of a region with their noise, so normalizing an image beforehand (normalize=True) does not change it, and in no case does a pixel outside of the region influence the result.", "quantifier": "all floating point images that are not uniform and all regions", "why_tests_cant": "A question about all images: normalization uses the darkest and brightest pixel of the whole image, tests compare a few scores.", "anchors": ["src/viqa/utils/loading.py:normalize_data", "src/viqa/nr_metrics/snr.py:signal_to_noise_ratio 1096-1099"]}
{"id": "C207", "title": "Colour images scored with chromatic=False", "statement": "RMSE and PSNR of colour images with chromatic=False (the default, which compares gray values) follow those of the colours (chromatic=True): RMSE is at most 1.3 times as large and PSNR at most 2.3 dB lower, both modes agree for images without colour, and RMSE is zero only if the images agree.", "quantifier": "all pairs of colour images of the same shape and data type", "why_tests_cant": "Which colour differences disappear in the gray values depends on the weights of the three channels; test images with a difference in one channel never show it.", "anchors": ["src/viqa/utils/misc.py:32-37", "src/viqa/utils/loading.py:958-1011", "src/viqa/fr_metrics/rmse.py:95-116", "src/viqa/fr_metrics/psnr.py:108-133"]}
{"id": "C208", "title": "The border rule has no influence on SSIM", "statement": "SSIM averages only over windows that lie inside the images, so the border rule (mode) and the fill value (cval) do not change the score, for gray and colour images.", "quantifier": "all images, windows, rules known to SciPy and fill values", "why_tests_cant": "A test compares two rules for one image and one window; whether a pixel outside is read depends on the interplay of win_size, sigma and the crop.", "anchors": ["src/viqa/fr_metrics/ssim.py:structural_similarity 321-353, 416-419"]}
{"id": "C209", "title": "The scores of whole images bound those of a region of interest", "statement": "For a region of interest with n of the N pixels RMSE is at most sqrt(N / n) times that of the whole images (exactly this if the images agree elsewhere) and PSNR at most 10 log10(N / n) lower; for a region with n of the N windows 1 - SSIM is at most N / n times that of the whole images.", "quantifier": "all images and volumes, regions inside of them, data ranges, constants, exponents >= 0 and windows (with Gaussian weights win_size not smaller than the Gaussian window, see C208)", "why_tests_cant": "Relates two calls with and without roi for all regions; a test tries one region of one image.", "anchors": ["src/viqa/utils/loading.py:crop_image 894-955", "src/viqa/fr_metrics/rmse.py:95-116", "src/viqa/fr_metrics/psnr.py:108-133", "src/viqa/fr_metrics/ssim.py:structural_similarity 321-419"]}
{"id": "C210", "title": "SNR and CNR do not depend on the orientation of the image", "statement": "The SNR of a cubic or spherical region and the CNR of two regions stay the same if the image or volume is flipped, transposed or rotated and the centres are moved to the same pixels.", "quantifier": "all gray images and volumes, all compositions of flips and transpositions, both region types, all centres and radii", "why_tests_cant": "Relates two calls for all images and all compositions of flips and transpositions; with a smooth image the difference caused by a shift by one pixel hides in the tolerance of a test.", "anchors": ["src/viqa/utils/misc.py:_to_spherical, _to_cubic 587-639", "src/viqa/nr_metrics/cnr.py:contrast_to_noise_ratio 796-842", "src/viqa/nr_metrics/snr.py:signal_to_noise_ratio 1020-1099"]}
{"id": "C211", "title": "Exchanging bright and dark in both images does not change the scores", "statement": "If both images are replaced by their negatives (gray value v becomes m - v), RMSE, PSNR, SSIM and GSM stay the same; CNR only changes its sign.", "quantifier": "all images, all m, all parameters", "why_tests_cant": "Relates two calls for all images; whether a term depends on brightness or on contrast only shows for images of different brightness.", "anchors": ["src/viqa/fr_metrics/rmse.py:score", "src/viqa/fr_metrics/psnr.py:score", "src/viqa/fr_metrics/ssim.py:structural_similarity 373-411", "src/viqa/fr_metrics/gsm.py:gradient_similarity 418-441", "src/viqa/nr_metrics/cnr.py:contrast_to_noise_ratio 836-842"]}
{"id": "C212", "title": "RMSE covers the differences of the statistics", "statement": "The mean, the standard deviation, the median, the minimum and the maximum that calculate_statistics reports for two images differ by at most the RMSE of the images; what RMSE measures beyond the offset of the means is the standard deviation of the difference image.", "quantifier": "all pairs of images of the same shape", "why_tests_cant": "Relates RMSE to the statistics of both images for all images; whether a statistic can move further than RMSE depends on how the differences are distributed.", "anchors": ["src/viqa/fr_metrics/rmse.py:score", "src/viqa/utils/loading.py:ImageArray.calculate_statistics 198-230"]}
{"id": "C213", "title": "Losses along a chain of processing steps", "statement": "If an image passes through several steps (filtering, compression, registration, ...) and each step is scored against the image before it, the last image is not worse than these scores allow: its RMSE to the first image is at most the sum of the RMSE of the steps, its PSNR is at least the lowest PSNR minus 20 log10 of the number of steps, and SSIM loses at most the sum of what it loses in the steps.", "quantifier": "all chains of images of any length, all data ranges", "why_tests_cant": "Quantifies over chains of any length and all images; whether a score is a distance cannot be seen from single pairs.", "anchors": ["src/viqa/fr_metrics/rmse.py:score", "src/viqa/fr_metrics/psnr.py:score", "src/viqa/fr_metrics/ssim.py:structural_similarity 373-411"]}
{"id": "C214", "title": "Regions found automatically turn with the image", "statement": "If regions are found automatically (auto_center=True), the orientation of the image plays no role: for an image that is flipped, transposed or rotated, find_largest_region finds the same radius and the centre at the corresponding place, and SNR and CNR stay the same. The search raises an exception for all orientations or for none.", "quantifier": "all gray images with two or three axes of more than three pixels, all sequences of flips and exchanges of axes, all percentiles, numbers of iterations and region types", "why_tests_cant": "Binarisation, dilation, erosion, distance transform and the search for the maximum follow each other; a test with one image and one rotation shows neither that every step commutes with every turn nor where the order of the pixels decides between equal maxima.", "anchors": ["src/viqa/utils/misc.py:_get_binary", "src/viqa/utils/misc.py:find_largest_region", "src/viqa/nr_metrics/snr.py:signal_to_noise_ratio", "src/viqa/nr_metrics/cnr.py:contrast_to_noise_ratio"]}
{"id": "C215", "title": "The radius found grows with the object", "statement": "The radius that find_largest_region finds does not get smaller if pixels are added to the object, if auto_center takes a wider interval of percentiles, or if more iterations are used to close larger holes.", "quantifier": "all binary images, images and volumes, all intervals of percentiles with one inside the other, all numbers of iterations from one", "why_tests_cant": "Compares two searches for all pairs of objects, one inside the other; the steps (dilation, erosion, distance transform, maximum, percentiles with interpolation) would have to be monotone for every image, and a test sees one pair.", "anchors": ["src/viqa/utils/misc.py:_get_binary 452-490", "src/viqa/utils/misc.py:find_largest_region 493-582"]}
{"id": "C216", "title": "Automatic signal and background are different regions", "statement": "If CNR is calculated with auto_center, the signal and the background are two different regions, and the pixels around the centre of the signal are brighter than those around the centre of the background.", "quantifier": "all gray images and volumes, all numbers of iterations, cubic and spherical regions", "why_tests_cant": "The two regions come from two independent searches (percentiles, closing of holes, distance transform); that they never coincide is a statement about all images, and a test looks at an image with one clear object.", "anchors": ["src/viqa/utils/misc.py:_get_binary 452-490", "src/viqa/utils/misc.py:find_largest_region 493-582", "src/viqa/nr_metrics/cnr.py:contrast_to_noise_ratio 757-794"]}
{"id": "C217", "title": "The argument experimental of GSM can be given for every image", "statement": "GSM.score accepts the argument experimental for every image: experimental=False gives the score that is calculated without the argument, experimental=True calculates the score of a volume as a whole, and a wrong dim is reported in both cases.", "quantifier": "all images, slices and volumes, all values of dim and im_slice", "why_tests_cant": "Whether a keyword is accepted depends on which of three functions the images, dim and im_slice lead to; the statement is about all combinations and all images, tests call the method for one of them.", "anchors": ["src/viqa/fr_metrics/gsm.py:GSM.score 192-256", "src/viqa/fr_metrics/gsm.py:gradient_similarity_3d 277-358", "src/viqa/fr_metrics/gsm.py:gradient_similarity 361"]}
{"id": "C218", "title": "Automatic regions depend only on the order of the gray values", "statement": "The centre, radius and region that auto_center finds in a gray image do not change if the gray values are changed in a way that keeps their order, for example by gamma correction or any strictly increasing contrast curve; SNR and CNR are then measured in the same regions.", "quantifier": "all pairs of gray images and volumes with the same order of gray values, all intervals of percentiles, all numbers of iterations", "why_tests_cant": "The thresholds are percentiles interpolated between gray values, which do move under a curve; that no pixel ever changes sides has to be shown for all images, all curves and all percentiles.", "anchors": ["src/viqa/utils/misc.py:_get_binary 452-490", "src/viqa/utils/misc.py:find_largest_region 493-582", "src/viqa/nr_metrics/cnr.py:contrast_to_noise_ratio 757-794"]}
{"id": "C219", "title": "Thresholds select the share of pixels they name", "statement": "With the thresholds of auto_center the signal consists of the brightest tenth of the pixels: at most 100 - q percent of the pixels (rounded up) are above the percentile q, and not fewer, so that a signal is found.", "quantifier": "all gray images and volumes, all percentiles, all numbers of iterations and types of regions", "why_tests_cant": "The number of pixels above an interpolated percentile depends on all gray values and their ties; the bound holds for every image, and a test with a smooth image does not show what happens with equal gray values.", "anchors": ["src/viqa/utils/misc.py:_get_binary 452-490", "src/viqa/utils/misc.py:find_largest_region 531-533", "src/viqa/nr_metrics/cnr.py:contrast_to_noise_ratio 757-794"]}
{"id": "C220", "title": "SSIM rejects window sizes that are not positive", "statement": "structural_similarity with a win_size of zero or less raises ValueError, as for windows that are even or too large; a score is never returned for a window that contains no pixels.", "quantifier": "all pairs of images and volumes of equal shape, all window sizes that are not positive, all constants", "why_tests_cant": "Tests use a few window sizes; that a negative window passes both checks and then selects a corner of the image follows from the remainder of Python and from slices with negative ends, for every image and every negative odd size.", "anchors": ["src/viqa/fr_metrics/ssim.py:structural_similarity 330-341", "src/viqa/fr_metrics/ssim.py:structural_similarity 369-371", "src/viqa/fr_metrics/ssim.py:structural_similarity 415-419"]}
